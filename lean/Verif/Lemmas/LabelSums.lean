import Verif.Spec.LabelSums
import Verif.Props.Worktime
/-! Sums of labels. -/
namespace TB
variable {L : Type}

theorem addAll_number (q : Rat) : ∀ vs : List Val, vs.all (fun v => v.worth.isSome) = true →
    addAll (.number q) (vs.map Val.fill) = .ok (.number (q + (vs.filterMap Val.worth).sum))
  | [], _ => by simp [addAll, Rat.add_zero]
  | v :: vs, h => by
    rw [List.all_cons, Bool.and_eq_true] at h
    have ih := fun q => addAll_number q vs h.2
    cases v with
    | number a => simp only [List.map_cons, Val.fill, addAll, Val.add, ih, List.filterMap_cons, Val.worth, List.sum_cons]; congr 2; grind
    | nothing => simp only [List.map_cons, Val.fill, addAll, Val.add, ih, List.filterMap_cons, Val.worth, List.sum_cons]; congr 2; grind
    | nan => simp only [List.map_cons, Val.fill, addAll, Val.add, ih, List.filterMap_cons, Val.worth, List.sum_cons]; congr 2; grind
    | text s => simp [Val.worth] at h
    | thing => simp [Val.worth] at h

theorem addAll_number_bad (q : Rat) : ∀ vs : List Val, vs.all (fun v => v.worth.isSome) = false →
    addAll (.number q) (vs.map Val.fill) = .error .typeError
  | [], h => by simp at h
  | v :: vs, h => by
    cases v with
    | number a => simp only [List.map_cons, Val.fill, addAll, Val.add]; exact addAll_number_bad _ vs (by simpa [Val.worth] using h)
    | nothing => simp only [List.map_cons, Val.fill, addAll, Val.add]; exact addAll_number_bad _ vs (by simpa [Val.worth] using h)
    | nan => simp only [List.map_cons, Val.fill, addAll, Val.add]; exact addAll_number_bad _ vs (by simpa [Val.worth] using h)
    | text s => rfl
    | thing => rfl

theorem addAll_text (a : String) : ∀ vs : List Val, vs.all (fun v => v.words.isSome) = true →
    addAll (.text a) (vs.map Val.fill) = .ok (.text ((vs.filterMap Val.words).foldl (· ++ ·) a))
  | [], _ => rfl
  | v :: vs, h => by
    rw [List.all_cons, Bool.and_eq_true] at h
    cases v with
    | text b => simp only [List.map_cons, Val.fill, addAll, Val.add, addAll_text _ vs h.2, List.filterMap_cons, Val.words, List.foldl_cons]
    | number a => simp [Val.words] at h
    | nothing => simp [Val.words] at h
    | nan => simp [Val.words] at h
    | thing => simp [Val.words] at h

theorem addAll_text_bad (a : String) : ∀ vs : List Val, vs.all (fun v => v.words.isSome) = false →
    addAll (.text a) (vs.map Val.fill) = .error .typeError
  | [], h => by simp at h
  | v :: vs, h => by
    cases v with
    | text b => simp only [List.map_cons, Val.fill, addAll, Val.add]; exact addAll_text_bad _ vs (by simpa [Val.words] using h)
    | number a => rfl
    | nothing => rfl
    | nan => rfl
    | thing => rfl

theorem addAll_thing : ∀ vs : List Val, vs ≠ [] → addAll .thing (vs.map Val.fill) = .error .typeError
  | [], h => absurd rfl h
  | v :: vs, _ => by cases v <;> rfl

theorem seriesSum_eq (vs : List Val) : seriesSum vs = totalOf vs := by
  unfold seriesSum totalOf
  cases vs with
  | nil => rfl
  | cons v vs =>
    have key : ∀ q : Rat, v.fill = .number q → v.worth = some q → v.words = none → addAll v.fill (vs.map Val.fill) =
        if (v :: vs).all (fun v => v.worth.isSome) then .ok (.number ((v :: vs).filterMap Val.worth).sum)
        else if (v :: vs).all (fun v => v.words.isSome) then .ok (.text (String.join ((v :: vs).filterMap Val.words)))
        else if (v :: vs) = [.thing] then .ok .thing
        else .error .typeError := by
      intro q h1 h2 h3
      have h4 : ¬ (v :: vs) = [.thing] := by intro h; injection h with h _; subst h; cases h1
      rw [List.all_cons, List.all_cons, h3, h2, h1, if_neg h4]
      simp only [Option.isSome_some, Option.isSome_none, Bool.true_and, Bool.false_and, Bool.false_eq_true, if_false]
      cases h : vs.all (fun v => v.worth.isSome) with
      | true => rw [addAll_number q vs h, List.filterMap_cons, h2]; rfl
      | false => rw [addAll_number_bad q vs h]; rfl
    simp only [List.map_cons]
    cases v with
    | number q => exact key q rfl rfl rfl
    | nothing => exact key 0 rfl rfl rfl
    | nan => exact key 0 rfl rfl rfl
    | text s =>
      rw [List.all_cons, List.all_cons, if_neg (by simp [Val.worth])]
      have e : (Val.text s).words.isSome = true := rfl
      rw [e, Bool.true_and, if_neg (by simp : ¬ (Val.text s :: vs) = [.thing])]
      show addAll (.text s) _ = _
      cases h : vs.all (fun v => v.words.isSome) with
      | true =>
        rw [addAll_text s vs h, if_pos rfl, List.filterMap_cons]
        simp only [Val.words, String.join, List.foldl_cons, String.empty_append]
      | false => rw [addAll_text_bad s vs h]; rfl
    | thing =>
      rw [List.all_cons, List.all_cons, if_neg (by simp [Val.worth]), if_neg (by simp [Val.words])]
      cases vs with
      | nil => rfl
      | cons x xs => rw [if_neg (by simp)]; exact addAll_thing (x :: xs) (by simp)

/-- The labels of the workshifts with the duty are found in order. -/
theorem mapM_labels {tb : Timeboard L} (ws : List (Workshift L)) (h : ∀ w ∈ ws, tb.timeline.label w.loc = .ok w.label) :
    (ws.map (fun w : Workshift L => w.loc)).mapM (fun i => tb.timeline.label i) = .ok (ws.map (fun w => w.label)) := by
  induction ws with
  | nil => rfl
  | cons w ws ih =>
    rw [List.map_cons, List.mapM_cons, h w (by simp), ih (fun x hx => h x (by simp [hx]))]; rfl

theorem Interval.Proper.sumAny_eq {v : Interval L} {tb : Timeboard L} (hp : v.Proper tb) (hv : tb.Valid) (fv : v.Fine tb) {sch : Option (Schedule L)}
    (hs : tb.OwnsOpt sch) {d : Duty} (hd : d = .on ∨ d = .off ∨ d = .any) (kind : L → Val) :
    ∃ ws, v.workshifts tb d sch = .ok ws ∧ v.sumAny tb kind d sch = totalOf (ws.map (fun w => kind w.label)) := by
  obtain ⟨ws, h1, h2, h3⟩ := fv.workshifts_spec hv hs hd
  refine ⟨ws, h1, ?_⟩
  have ho := owns_getD_fine fv hs
  unfold Interval.sumAny
  have hm := mapM_labels ws (fun w hw => (h3 w hw).2)
  rcases hp.dutyIdx_spec hv ho hd with ⟨idx, e1, e2⟩ | ⟨idx, a, b, e1, e2, e3, e4, e5⟩
  · rw [e1]
    rw [e2] at h2
    have : ws = [] := List.map_eq_nil_iff.1 h2
    subst this
    rfl
  · rw [e1]
    simp only
    rw [e5, ← h2, hm]
    simp only [seriesSum_eq, List.map_map]
    rfl

end TB
