import Verif.Proof.RelocTables
/-! # Consequences of the relocation calculus -/

namespace OpenType

theorem ext_refl (d : Data) : Ext d d 0 := by intro i b h; simpa using h

theorem ext_mid (pre d suf : Data) : Ext d (pre ++ d ++ suf) pre.length := by
  intro i b h
  have hi := (List.getElem?_eq_some_iff.mp h).1
  rw [List.append_assoc, List.getElem?_append_right (by omega), Nat.add_sub_cancel_left,
    List.getElem?_append_left hi]
  exact h

theorem ext_drop (d : Data) (p : Nat) : Ext (d.drop p) d p := by
  intro i b h; rwa [List.getElem?_drop] at h

theorem tight_drop (d : Data) (p : Nat) : Tight (d.drop p) d p := by
  intro i h; rwa [List.getElem?_drop] at h

section
variable {e : Prop} {α : Type} {r : Reader α} {P : α → Prop} [h : Reloc e r P]

include h in
theorem panic_only_if {d : Data} (hd : Fits d) {p : Nat} {m : String}
    (hm : r d p = .error (.panic m)) : e := by
  have := h.good (ext_refl d) hd p
  unfold Good at this
  rw [hm] at this
  exact this.1

include h in
theorem moved {d D : Data} {k : Nat} (hx : Ext d D k) (hD : Fits D) {p : Nat} :
    (∀ v q, r d p = .ok (v, q) → r D (k + p) = .ok (v, k + q)) ∧
    (∀ m, r d p = .error (.malformed m) → r D (k + p) = .error (.malformed m)) ∧
    (Tight d D k → r d p = .error .eof → r D (k + p) = .error .eof) ∧
    (∀ m, r d p = .error (.panic m) → r D (k + p) = .error (.panic m)) := by
  have := h.good hx hD p
  unfold Good at this
  refine ⟨?_, ?_, ?_, ?_⟩
  · intro v q hr; rw [hr] at this; exact this.1
  · intro m hr; rw [hr] at this; exact this
  · intro ht hr; rw [hr] at this; exact this ht
  · intro m hr; rw [hr] at this; exact this.2

end
end OpenType
