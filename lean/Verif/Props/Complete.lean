import Verif.Props.Confined
import Verif.Props.Truncation
/-! # C67: no complete table is reported as incomplete -/

namespace OpenType.Props
open OpenType Spec coverage class_ correction context script feature directory offsets

/-- A reading that gives a value asks for no byte behind the last one that makes up the value, `encode t` being where they
are and what they are. -/
def AsksForNoMore {α : Type} (r : Reader α) (encode : α → List Chunk) : Prop :=
  ∀ (d : Data) (p : Nat) (t : α) (q : Nat), Fits d → r d p = .ok (t, q) →
    ∀ s n, (s, n) ∈ r.fetches d p → 0 < n → ∃ c ∈ encode t, s + n ≤ p + c.1 + c.2.length

theorem asksForNoMore {α : Type} {r : Reader α} {encode : α → List Chunk} [Stops r] (h : NoticesLoss r encode) :
    AsksForNoMore r encode := by
  intro d p t q hd hr s n hs hn
  obtain ⟨k, h1, h2⟩ : ∃ k, (∀ c ∈ encode t, ∀ i < c.2.length, p + c.1 + i < k) ∧
      (k = 0 ∨ ∃ c ∈ encode t, k = p + c.1 + c.2.length) := by
    generalize encode t = chunks
    induction chunks with
    | nil => exact ⟨0, by simp, .inl rfl⟩
    | cons c chunks ih =>
      obtain ⟨k, h1, h2⟩ := ih
      by_cases hk : k ≤ p + c.1 + c.2.length
      · refine ⟨p + c.1 + c.2.length, fun c' hc' i hi => ?_, .inr ⟨c, List.mem_cons_self, rfl⟩⟩
        rcases List.mem_cons.mp hc' with rfl | hc'
        · omega
        · have := h1 c' hc' i hi; omega
      · refine ⟨k, fun c' hc' i hi => ?_, h2.imp_right fun ⟨c', hc', e⟩ => ⟨c', List.mem_cons_of_mem _ hc', e⟩⟩
        rcases List.mem_cons.mp hc' with rfl | hc'
        · omega
        · exact h1 c' hc' i hi
  have h3 := (h d p t q k hd hr).1 h1
  have h4 : ∀ s n, (s, n) ∈ r.fetches (d.take k) p → 0 < n → s + n ≤ (d.take k).length := by
    intro s n hs hn
    refine Nat.le_of_not_lt fun hl => ?_
    rw [(missesExactly (d.take k) p).mpr ⟨s, n, hs, hn, hl⟩] at h3
    cases h3
  rw [fetches_take h4] at hs
  have h5 := h4 s n hs hn
  rw [List.length_take] at h5
  rcases h2 with rfl | ⟨c, hc, rfl⟩
  · omega
  · exact ⟨c, hc, by omega⟩

/-- The tables. So each of them is read from a file that ends with its last byte. -/
theorem C67_complete (cfg : Cfg) :
    AsksForNoMore (gsub.GlyphSubstitution.read cfg) (directoryEncoding cfg) ∧
    AsksForNoMore (gpos.GlyphPositioning.read cfg) (directoryEncoding cfg) ∧
    AsksForNoMore (gdef.GlyphDefinition.read cfg) gdefEncodingTaken ∧
    AsksForNoMore cpal.ColorPalettes.read encoding ∧
    AsksForNoMore (fvar.FontVariations.read cfg) encoding ∧
    AsksForNoMore (item.Store.read cfg) encoding :=
  have ⟨h1, h2, h3, h4, h5, h6⟩ := C60_loss cfg
  ⟨asksForNoMore h1, asksForNoMore h2, asksForNoMore h3, asksForNoMore h4, asksForNoMore h5, asksForNoMore h6⟩

/-- The parts of the layout tables. -/
theorem C67_complete_layout (cfg : Cfg) (type_ : Nat) :
    AsksForNoMore Coverage.read encoding ∧ AsksForNoMore Class.read encoding ∧
    AsksForNoMore Correction.read encoding ∧ AsksForNoMore Context.read encoding ∧
    AsksForNoMore ChainedContext.read encoding ∧ AsksForNoMore Scripts.read encoding ∧
    AsksForNoMore Features.read encoding ∧ AsksForNoMore (gsub.Type_.read type_) encoding ∧
    AsksForNoMore (gpos.Type_.read cfg type_) encoding :=
  have ⟨h1, h2, h3, h4, h5, h6, h7, h8, h9⟩ := C60_loss_layout cfg type_
  ⟨asksForNoMore h1, asksForNoMore h2, asksForNoMore h3, asksForNoMore h4, asksForNoMore h5, asksForNoMore h6,
    asksForNoMore h7, asksForNoMore h8, asksForNoMore h9⟩

/-- A palette table whose last four bytes are not part of it: they are not asked for. -/
example :
    let d := bytes [0, 0,  0, 1,  0, 1,  0, 1,  0, 0, 0, 14,  0, 0,  9, 8, 7, 6,  5, 5, 5, 5]
    let t : cpal.ColorPalettes := ⟨.version0 ⟨0, 1, 1, 1, 14, [0]⟩, [⟨9, 8, 7, 6⟩]⟩
    cpal.ColorPalettes.read d 0 = .ok (t, 18) ∧ (17, 1) ∈ cpal.ColorPalettes.read.fetches d 0 ∧
      ∃ c ∈ encoding t, 17 + 1 = 0 + c.1 + c.2.length := by
  decide +kernel

end OpenType.Props
