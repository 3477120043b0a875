import Verif.Lemmas.MarkerAt
/-! The first point kept of the candidates of a marker. -/
namespace TB

/-- The slice begins with the last point at or before the start of the span. -/
theorem sliceAtPoints_head {pts : List Time} {a b : Int} (hs : pts.Pairwise (· ≤ ·)) (hab : a < b) (h : ∃ x ∈ pts, x ≤ a) :
    ∃ x, (sliceAtPoints pts a b).head? = some x ∧ x ∈ pts ∧ x ≤ a ∧ ∀ y ∈ pts, y ≤ a → y ≤ x := by
  obtain ⟨y, hy, hya⟩ := h
  obtain ⟨k, hk, rfl⟩ := List.getElem_of_mem hy
  have e1 := (getElem_le_iff hs a k hk)
  have hr := ssRight_le pts a
  have hlo : (max 0 (ssRight pts a - 1)).toNat = (ssRight pts a - 1).toNat := by omega
  have hlt : (ssRight pts a - 1).toNat < pts.length := by omega
  have e2 := (getElem_le_iff hs a (ssRight pts a - 1).toNat hlt)
  have e3 := (getElem_lt_iff hs b (ssRight pts a - 1).toNat hlt)
  have ha : pts[(ssRight pts a - 1).toNat] ≤ a := e2.2 (by omega)
  have hb := e3.1 (by omega)
  refine ⟨pts[(ssRight pts a - 1).toNat], ?_, List.getElem_mem _, ha, ?_⟩
  · unfold sliceAtPoints
    simp only [hlo]
    rw [List.head?_drop, List.getElem?_take_of_lt (by omega), List.getElem?_eq_getElem hlt]
  · intro z hz hza
    obtain ⟨j, hj, rfl⟩ := List.getElem_of_mem hz
    have e4 := (getElem_le_iff hs a j hj).1 hza
    rcases Nat.lt_or_ge j (ssRight pts a - 1).toNat with h | h
    · exact List.pairwise_iff_getElem.1 hs j _ hj hlt h
    · have : j = (ssRight pts a - 1).toNat := by omega
      subst this
      exact Int.le_refl _

end TB
