import Verif.Proof.Counts
import Verif.Proof.Gsub
import Verif.Proof.Gpos
import Verif.Proof.Gdef
import Verif.Proof.Cpal
import Verif.Proof.Fvar
import Verif.Props.Sample
/-! # C42: counts equal lengths -/

namespace OpenType.Props
open OpenType Spec coverage class_ context script feature directory

/-- Whatever a reader returns from a tape has the counted lengths, at every level. -/
def Counting {α : Type} [Counted α] (r : Reader α) : Prop :=
  ∀ (d : Data) (p : Nat) (t : α) (q : Nat), Fits d → r d p = .ok (t, q) → counted t

theorem counting {α : Type} [Counted α] {r : Reader α} {S : Data → Nat → α → Prop} [h : Parses r S]
    [∀ d, Counts (S d)] : Counting r := fun _ _ _ _ hd hr => Counts.of ((h.reads hd).mp ⟨_, hr⟩)

/-- The glyph substitution table. -/
theorem C42_gsub (cfg : Cfg) : Counting (gsub.GlyphSubstitution.read cfg) :=
  counting (S := fun d => IsDirectory cfg Spec.gsub.IsTable d)

/-- The glyph positioning table. -/
theorem C42_gpos (cfg : Cfg) : Counting (gpos.GlyphPositioning.read cfg) :=
  counting (S := fun d => IsDirectory cfg (Spec.gpos.IsTable cfg) d)

/-- The glyph definition table. -/
theorem C42_gdef (cfg : Cfg) : Counting (gdef.GlyphDefinition.read cfg) := counting

/-- The color palettes. -/
theorem C42_cpal : Counting cpal.ColorPalettes.read := counting

/-- The font variations. -/
theorem C42_fvar (cfg : Cfg) : Counting (fvar.FontVariations.read cfg) := counting

/-- The item variation store. -/
theorem C42_store (cfg : Cfg) : Counting (item.Store.read cfg) := counting

/-- The tables of the layout module, taken on their own. -/
theorem C42_layout : Counting Coverage.read ∧ Counting Class.read ∧ Counting Context.read ∧
    Counting ChainedContext.read ∧ Counting Scripts.read ∧ Counting Features.read :=
  ⟨counting, counting, counting, counting, counting, counting⟩

/-- A substitution subtable and a positioning subtable of every type, taken on their own. -/
theorem C42_lookup (cfg : Cfg) (type_ : Nat) :
    Counting (gsub.Type_.read type_) ∧ Counting (gpos.Type_.read cfg type_) := ⟨counting, counting⟩

/-- A rule with three glyphs stores two of them. -/
example : ∃ t : context.Record, Reads context.Record.read (bytes [0, 3, 0, 1, 0, 7, 0, 8, 0, 0, 0, 5]) 0 t ∧
    counted t ∧ t.glyph_count = 3 ∧ t.glyph_ids = [7, 8] :=
  ⟨⟨3, 1, [7, 8], [⟨0, 5⟩]⟩, ⟨12, by decide +kernel⟩, ⟨rfl, rfl⟩, rfl, rfl⟩

/-- The predicate is not trivial: a count that is off by one does not satisfy it, however deep it is. -/
example : ¬counted (Context.format3 ⟨3, 1, 0, [8], [], [.format1 ⟨1, 2, [7]⟩]⟩) :=
  fun h => absurd (h.2.2.2 _ (List.mem_singleton.mpr rfl)) (by decide : ¬(1 : Nat) = 2)

end OpenType.Props
