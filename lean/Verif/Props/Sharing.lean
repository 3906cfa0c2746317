import Verif.Proof.Sharing
import Verif.Props.Sample
/-! # C77: parts that share their place are read alike -/

namespace OpenType.Props
open OpenType Spec context script feature lookup directory

/-- In whatever a reader returns from a tape, equal offsets lead to equal things, at every level. -/
def SharedAlike {α : Type} [Sharing α] (r : Reader α) : Prop :=
  ∀ (d : Data) (p : Nat) (t : α), Fits d → Reads r d p t → shares t

theorem shared_alike {α : Type} [Sharing α] {r : Reader α} {S : Data → Nat → α → Prop} [h : Parses r S] [Shares S] :
    SharedAlike r := fun _ _ _ hd hr => Shares.of hd ((h.reads hd).mp hr)

/-- The glyph substitution table. -/
theorem C77_gsub (cfg : Cfg) : SharedAlike (gsub.GlyphSubstitution.read cfg) := fun _ _ _ hd hr =>
  shares_directory (readTable := gsub.Type_.read) (S := Spec.gsub.IsTable) hd
    ((reads_parses (S := Spec.gsub.IsGlyphSubstitution cfg) hd).mp hr)

/-- The glyph positioning table. -/
theorem C77_gpos (cfg : Cfg) : SharedAlike (gpos.GlyphPositioning.read cfg) := fun _ _ _ hd hr =>
  shares_directory (readTable := gpos.Type_.read cfg) (S := Spec.gpos.IsTable cfg) hd
    ((reads_parses (S := Spec.gpos.IsGlyphPositioning cfg) hd).mp hr)

/-- The glyph definition table. -/
theorem C77_gdef (cfg : Cfg) : SharedAlike (gdef.GlyphDefinition.read cfg) := shared_alike

/-- The item variation store. -/
theorem C77_store (cfg : Cfg) : SharedAlike (item.Store.read cfg) := shared_alike

/-- The tables of the layout module, taken on their own. -/
theorem C77_layout : SharedAlike Context.read ∧ SharedAlike ChainedContext.read ∧ SharedAlike Scripts.read ∧
    SharedAlike Features.read := ⟨shared_alike, shared_alike, shared_alike, shared_alike⟩

/-- A substitution subtable and a positioning subtable of every type, taken on their own. -/
theorem C77_lookup (cfg : Cfg) (type_ : Nat) :
    SharedAlike (gsub.Type_.read type_) ∧ SharedAlike (gpos.Type_.read cfg type_) := ⟨shared_alike, shared_alike⟩

/-- Two scripts at the same place. -/
example : ∃ t : Scripts, Reads Scripts.read
    (bytes [0, 2, 108, 97, 116, 110, 0, 14, 68, 70, 76, 84, 0, 14, 0, 4, 0, 0, 0, 0, 255, 255, 0, 1, 0, 7]) 0 t ∧
    shares t ∧ t.headers.map (·.offset) = [14, 14] ∧
    t.records = [⟨4, 0, [], some ⟨0, 65535, 1, [7]⟩, []⟩, ⟨4, 0, [], some ⟨0, 65535, 1, [7]⟩, []⟩] := by
  have h : Reads Scripts.read
      (bytes [0, 2, 108, 97, 116, 110, 0, 14, 68, 70, 76, 84, 0, 14, 0, 4, 0, 0, 0, 0, 255, 255, 0, 1, 0, 7]) 0
      ⟨2, [⟨0x6c61746e, 14⟩, ⟨0x44464c54, 14⟩],
        [⟨4, 0, [], some ⟨0, 65535, 1, [7]⟩, []⟩, ⟨4, 0, [], some ⟨0, 65535, 1, [7]⟩, []⟩]⟩ := by decide +kernel
  exact ⟨_, h, C77_layout.2.2.1 _ _ _ (by decide) h, rfl, rfl⟩

/-- Two lookups of the same type that share a subtable, though the lookups differ, and so do the offsets in them. -/
example : ∃ t, Reads (gsub.GlyphSubstitution.read ⟨true, false, false, false, true, true⟩)
    (bytes [0, 1, 0, 0, 0, 10, 0, 12, 0, 14, 0, 0, 0, 0, 0, 2, 0, 6, 0, 14, 0, 1, 0, 0, 0, 1, 0, 16, 0, 1, 0, 1, 0, 1, 0, 8,
      0, 1, 0, 6, 0, 3, 0, 1, 0, 1, 0, 9]) 0 t ∧
    shares t ∧ t.lookups.records.map (·.table_offsets) = [[16], [8]] ∧
    (subtables t.lookups).map (·.1) = [(1, 22), (1, 22)] := by
  have h : Reads (gsub.GlyphSubstitution.read ⟨true, false, false, false, true, true⟩)
      (bytes [0, 1, 0, 0, 0, 10, 0, 12, 0, 14, 0, 0, 0, 0, 0, 2, 0, 6, 0, 14, 0, 1, 0, 0, 0, 1, 0, 16, 0, 1, 0, 1, 0, 1, 0, 8,
        0, 1, 0, 6, 0, 3, 0, 1, 0, 1, 0, 9]) 0
      ⟨1, 0, 10, 12, 14, 0, ⟨0, [], []⟩, ⟨0, [], []⟩, ⟨2, [6, 14],
        [⟨1, 0, 1, [16], none, [.singleSubstitution (.format1 ⟨1, 6, 3, .format1 ⟨1, 1, [9]⟩⟩)]⟩,
          ⟨1, 1, 1, [8], none, [.singleSubstitution (.format1 ⟨1, 6, 3, .format1 ⟨1, 1, [9]⟩⟩)]⟩]⟩, none⟩ := by decide +kernel
  exact ⟨_, h, C77_gsub _ _ _ _ (by decide) h, rfl, rfl⟩

/-- The predicate is not trivial: two things at the same place that differ do not satisfy it, however deep they are. -/
example : ¬shares (Context.format1 ⟨1, 6, 1, [9], .format1 ⟨1, 1, [7]⟩,
    [⟨2, [4, 4], [⟨1, 0, [], []⟩, ⟨2, 0, [7], []⟩]⟩]⟩) := fun h =>
  absurd (h.2 _ (List.mem_singleton.mpr rfl) (4, _) (.head _) (4, _) (.tail _ (.head _)) rfl)
    (by decide : ¬(⟨1, 0, [], []⟩ : context.Record) = ⟨2, 0, [7], []⟩)

end OpenType.Props
