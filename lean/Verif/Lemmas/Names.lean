import Verif.Lemmas.Freq
import Verif.Lemmas.Reference
import Verif.Lemmas.Reading2
import Verif.Spec.Names
/-! Frequencies which mean the same periods are interchangeable. -/
namespace TB
variable {L : Type}

/-! ### Which names mean the same -/

/-- All base frequencies. -/
def Base.all : List Base :=
  [.S, .T, .H, .D, .M] ++ (List.finRange 7).map .W ++ (List.finRange 12).map .Q ++ (List.finRange 12).map .A

theorem Base.mem_all (b : Base) : b ∈ Base.all := by
  cases b <;> simp [Base.all]

/-- The starts of the periods which contain some points in time tell the base frequencies apart, but for quarters. -/
def Base.print (b : Base) : List Time :=
  [date 2017 5 10 + nsDay - nsSec, date 2017 5 11, date 2017 5 31, date 2017 6 30, date 2017 7 31, date 2017 8 31].map (fun t => b.startOf (b.ordOf t))

theorem Base.print_inj : ∀ b ∈ Base.all, ∀ b' ∈ Base.all, b.print = b'.print → 
    b = b' ∨ ∃ e ∈ List.finRange 12, ∃ e' ∈ List.finRange 12, b = .Q e ∧ b' = .Q e' ∧ (e : Nat) % 3 = (e' : Nat) % 3 := by
  decide +kernel

/-- What the code looks at is the same for both names. -/
theorem Freq.SameAs.facts {f g : Freq} (h : f.SameAs g) : f.base.startOf = g.base.startOf ∧ f.base.ordOf = g.base.ordOf ∧ f.mult = g.mult := by
  have hp : f.base.print = g.base.print := by
    unfold Base.print
    refine List.map_congr_left ?_
    intro t _
    exact (h t).1
  have hb : f.base.startOf = g.base.startOf ∧ f.base.ordOf = g.base.ordOf := by
    rcases Base.print_inj _ (Base.mem_all _) _ (Base.mem_all _) hp with e | ⟨e, _, e', _, h1, h2, h3⟩
    · rw [e]; exact ⟨rfl, rfl⟩
    · rw [h1, h2]
      have : (((e : Nat) : Int) + 1) % 3 = (((e' : Nat) : Int) + 1) % 3 := by omega
      constructor
      · funext o; simp only [Base.startOf]; rw [this]
      · funext o; simp only [Base.ordOf]; rw [this]
  refine ⟨hb.1, hb.2, ?_⟩
  have := (h 0).2
  simp only [Period.endTime, Period.ofTime] at this
  rw [← hb.1, ← hb.2] at this
  have := f.base.startOf_inj (by omega : f.base.startOf (f.base.ordOf 0 + f.mult) = f.base.startOf (f.base.ordOf 0 + g.mult))
  omega

theorem Freq.SameAs.of_facts {f g : Freq} (h1 : f.base.startOf = g.base.startOf) (h2 : f.base.ordOf = g.base.ordOf) (h3 : f.mult = g.mult) :
    f.SameAs g := by
  intro t
  simp only [Period.startTime, Period.endTime, Period.ofTime]
  rw [h1, h2, h3]
  exact ⟨rfl, rfl⟩

theorem Freq.SameAs.refl (f : Freq) : f.SameAs f := fun _ => ⟨rfl, rfl⟩
theorem Freq.SameAs.symm {f g : Freq} (h : f.SameAs g) : g.SameAs f := fun t => ⟨(h t).1.symm, (h t).2.symm⟩
theorem Freq.SameAs.trans {f g k : Freq} (h : f.SameAs g) (h' : g.SameAs k) : f.SameAs k :=
  fun t => ⟨(h t).1.trans (h' t).1, (h t).2.trans (h' t).2⟩

/-! ### Frames -/

/-- The frames differ at most in the name of the frequency. -/
structure Frame.Alike (f g : Frame) : Prop where
  freq : f.freq.SameAs g.freq
  o0 : f.o0 = g.o0
  n : f.n = g.n

namespace Frame.Alike
variable {f g : Frame}

theorem unitStart (h : f.Alike g) (i : Int) : f.unitStart i = g.unitStart i := by
  obtain ⟨h1, h2, h3⟩ := h.freq.facts
  unfold Frame.unitStart Frame.ord
  rw [h1, h3, h.o0]

theorem unitEnd (h : f.Alike g) (i : Int) : f.unitEnd i = g.unitEnd i := by
  obtain ⟨h1, h2, h3⟩ := h.freq.facts
  unfold Frame.unitEnd Frame.ord
  rw [h1, h3, h.o0]

theorem ord (h : f.Alike g) (i : Int) : f.ord i = g.ord i := by
  obtain ⟨h1, h2, h3⟩ := h.freq.facts
  unfold Frame.ord
  rw [h3, h.o0]

theorem startTimes (h : f.Alike g) : f.startTimes = g.startTimes := by
  unfold Frame.startTimes
  rw [h.n]
  exact List.map_congr_left (fun i _ => h.unitStart i)

theorem endTimes (h : f.Alike g) : f.endTimes = g.endTimes := by
  unfold Frame.endTimes
  rw [h.n]
  exact List.map_congr_left (fun i _ => h.unitEnd i)

theorem ords (h : f.Alike g) : f.ords = g.ords := by
  unfold Frame.ords
  rw [h.n]
  exact List.map_congr_left (fun i _ => h.ord i)

theorem divide (h : f.Alike g) (s : Span) (ts : List Time) : f.divide s ts = g.divide s ts := by
  have : ∀ i t, f.fallsIn i t = g.fallsIn i t := by
    intro i t
    unfold Frame.fallsIn
    rw [h.unitStart, h.unitEnd, h.n]
  unfold Frame.divide
  have e : (fun i => ts.any (f.fallsIn i)) = (fun i => ts.any (g.fallsIn i)) := by
    funext i
    congr 1
    funext t
    exact this i t
  rw [e]

theorem unitsBefore (h : f.Alike g) (i : Int) (t : Time) : f.unitsBefore i t = g.unitsBefore i t := by
  obtain ⟨h1, h2, h3⟩ := h.freq.facts
  unfold Frame.unitsBefore
  rw [h2, h3, h.ord]

theorem unitsAfter (h : f.Alike g) (i : Int) (t : Time) : f.unitsAfter i t = g.unitsAfter i t := by
  obtain ⟨h1, h2, h3⟩ := h.freq.facts
  unfold Frame.unitsAfter
  rw [h2, h3, h.ord]

end Frame.Alike

theorem Freq.SameAs.delta {f g : Freq} (h : f.SameAs g) : getFreqDelta f = getFreqDelta g := by
  obtain ⟨h1, h2, h3⟩ := h.facts
  unfold getFreqDelta
  rw [h1, h2, h3]

theorem Freq.SameAs.periodsOver {f g : Freq} (h : f.SameAs g) (a b : Time) : (f.periodsOver a b).Alike (g.periodsOver a b) := by
  obtain ⟨h1, h2, h3⟩ := h.facts
  unfold Freq.periodsOver
  exact ⟨h, by rw [h2], by rw [h2, h3]⟩

theorem Freq.SameAs.frame_new {f g : Freq} (h : f.SameAs g) (a b : Time) :
    (∀ e, Frame.new f a b = .error e ↔ Frame.new g a b = .error e) ∧
    ∀ F G, Frame.new f a b = .ok F → Frame.new g a b = .ok G → F.Alike G := by
  obtain ⟨h1, h2, h3⟩ := h.facts
  have e : periodRange f a b = periodRange g a b := by
    unfold periodRange
    rw [h2, h3]
  unfold Frame.new
  rw [e]
  cases periodRange g a b with
  | nil => exact ⟨fun _ => Iff.rfl, fun _ _ hF => by cases hF⟩
  | cons o os =>
    refine ⟨fun _ => by simp, ?_⟩
    intro F G hF hG
    cases hF; cases hG
    exact ⟨h, rfl, rfl⟩

/-! ### Layouts -/

/-- The marker is treated alike under both names. -/
def Marker.Treated (ρ : Freq → Freq) (bu bu' : Freq) (m : Marker) : Prop :=
  checkGroupbyFreq bu m.each = checkGroupbyFreq bu' (ρ m.each) ∧ ∀ how ∈ m.ats, Nameless how

theorem mapM_congr_mem {α β ε : Type} {f g : α → Except ε β} : ∀ (xs : List α), (∀ x ∈ xs, f x = g x) → xs.mapM f = xs.mapM g
  | [], _ => rfl
  | x :: xs, h => by
    rw [List.mapM_cons, List.mapM_cons, h x (by simp), mapM_congr_mem xs (fun y hy => h y (by simp [hy]))]

theorem Marker.Treated.cut {ρ : Freq → Freq} (hρ : ∀ x : Freq, x.SameAs (ρ x)) {f g : Frame} (hf : f.Alike g) {m : Marker}
    (hm : m.Treated ρ f.freq g.freq) (s : Span) : f.cut s (.marker m) = g.cut s (Cut.respell ρ (.marker m)) := by
  have hd := (hρ m.each).delta
  have hp := (hρ m.each).periodsOver
  have hdel : ∀ a b, m.deliver f.freq (m.each.periodsOver a b) = Marker.deliver { m with each := ρ m.each } g.freq ((ρ m.each).periodsOver a b) := by
    intro a b
    unfold Marker.deliver
    simp only
    rw [mapM_congr_mem]
    intro how hh
    exact hm.2 how hh _ _ _ _ hf.freq (hp a b).n (hp a b).freq ((hp a b).unitStart 0)
  have hst : ∀ a b, (m.each.periodsOver a b).unitStart = ((ρ m.each).periodsOver a b).unitStart := fun a b => funext (hp a b).unitStart
  have hn : ∀ a b, (m.each.periodsOver a b).n = ((ρ m.each).periodsOver a b).n := fun a b => (hp a b).n
  simp only [Frame.cut, Cut.respell, hdel, hst, hm.1, hf.unitStart, hf.unitEnd, hd, hf.unitsBefore, hf.unitsAfter, hf.divide, hn]

/-- All markers of the layout are treated alike. -/
def Layout.Treated (ρ : Freq → Freq) (bu bu' : Freq) (l : Layout L) : Prop := ∀ m, l.UsesMarker m → m.Treated ρ bu bu'

theorem Layout.Treated.elem {ρ : Freq → Freq} {bu bu' : Freq} {c : Cut} {es : List (Layout L)}
    (h : (Layout.organizer c es).Treated ρ bu bu') : ∀ l ∈ es, l.Treated ρ bu bu' := by
  intro l hl m hm
  refine h m ?_
  rcases hm with ⟨es', hw⟩ | ⟨id, hw⟩
  · exact .inl ⟨es', .elem hl hw⟩
  · exact .inr ⟨id, .elem hl hw⟩

theorem Cut.treated {ρ : Freq → Freq} (hρ : ∀ x : Freq, x.SameAs (ρ x)) {f g : Frame} (hf : f.Alike g) (c : Cut)
    (h : ∀ m, c = .marker m → m.Treated ρ f.freq g.freq) (s : Span) : f.cut s c = g.cut s (c.respell ρ) := by
  cases c with
  | marker m => exact (h m rfl).cut hρ hf s
  | marks ts => simp only [Frame.cut, Cut.respell, hf.divide]

mutual
theorem Layout.read_respell {ρ : Freq → Freq} (hρ : ∀ x : Freq, x.SameAs (ρ x)) {f g : Frame} (hf : f.Alike g) (dl : L) :
    ∀ l : Layout L, l.Treated ρ f.freq g.freq → Layout.read f dl l = Layout.read g dl (l.respell ρ)
  | .organizer cut elems => by
    intro h
    have h1 := Cut.treated hρ hf cut (fun m e => h m (.inl ⟨elems, by rw [e]; exact .here⟩))
    have h2 := Layout.readAll_respell hρ hf dl elems h.elem
    funext s m
    simp only [Layout.respell, Layout.read]
    rw [h1, h2]
    have : elems.isEmpty = (Layout.respellAll ρ elems).isEmpty := by cases elems <;> rfl
    rw [this]
  | .organizerRP cut i => by
    intro h
    have h1 := Cut.treated hρ hf cut (fun m e => h m (.inr ⟨i, by rw [e]; exact .here⟩))
    funext s m
    simp only [Layout.respell, Layout.read]
    rw [h1]
  | .pattern (.list xs) => fun _ => by simp only [Layout.respell, Layout.read]
  | .pattern (.rp id) => fun _ => by simp only [Layout.respell, Layout.read]
  | .label l => fun _ => by simp only [Layout.respell, Layout.read]

theorem Layout.readAll_respell {ρ : Freq → Freq} (hρ : ∀ x : Freq, x.SameAs (ρ x)) {f g : Frame} (hf : f.Alike g) (dl : L) :
    ∀ ls : List (Layout L), (∀ l ∈ ls, l.Treated ρ f.freq g.freq) → Layout.readAll f dl ls = Layout.readAll g dl (Layout.respellAll ρ ls)
  | [] => fun _ => rfl
  | l :: ls => by
    intro h
    simp only [Layout.respellAll, Layout.readAll]
    rw [Layout.read_respell hρ hf dl l (h l (by simp)), Layout.readAll_respell hρ hf dl ls (fun x hx => h x (by simp [hx]))]
end

theorem amendPieces_alike {f g : Frame} (hf : f.Alike g) (items : List (Time × L)) (ps : List (Piece L)) :
    amendPieces f items ps = amendPieces g items ps := by
  have : ∀ p : Piece L, p.hits f items = p.hits g items := by
    intro p
    unfold Piece.hits
    rw [hf.unitStart, hf.unitEnd]
  unfold amendPieces
  simp only [this]

/-- The same pieces are read. -/
theorem Args.read_respell {ρ : Freq → Freq} (hρ : ∀ x : Freq, x.SameAs (ρ x)) {a a' : Args L} {bu : Freq} (hbu : a.freq.SameAs bu)
    (ha' : a' = { a with freq := bu, layout := a.layout.respell ρ }) (h : a.layout.Treated ρ a.freq bu) (m : Memory L) :
    (∀ e, a.read m = .error e ↔ a'.read m = .error e) ∧
    ∀ f ps m1, a.read m = .ok (f, ps, m1) → ∃ g, f.Alike g ∧ a'.read m = .ok (g, ps, m1) := by
  have hl : ∀ l : Layout L, l.Treated ρ a.freq bu →
      (∀ e, a.readLayout l m = .error e ↔ a'.readLayout (l.respell ρ) m = .error e) ∧
      ∀ f ps m1, a.readLayout l m = .ok (f, ps, m1) → ∃ g, f.Alike g ∧ a'.readLayout (l.respell ρ) m = .ok (g, ps, m1) := by
    intro l hl
    subst ha'
    have h2 := hbu.facts
    have hp := hbu.periodsOver a.start a.stop
    unfold Args.readLayout Args.frame
    simp only
    by_cases hw : a.worktimeSource ≠ "duration" ∧ a.worktimeSource ≠ "labels"
    · rw [if_pos hw, if_pos hw]
      exact ⟨fun e => Iff.rfl, fun _ _ _ hh => by cases hh⟩
    · rw [if_neg hw, if_neg hw, ← h2.2.1]
      by_cases hv : a.freq.base.ordOf a.stop < a.freq.base.ordOf a.start
      · rw [if_pos hv, if_pos hv]
        exact ⟨fun e => Iff.rfl, fun _ _ _ hh => by cases hh⟩
      · rw [if_neg hv, if_neg hv]
        simp only
        rw [← Layout.read_respell hρ hp a.defaultLabel l hl, ← hp.n]
        cases Layout.read (a.freq.periodsOver a.start a.stop) a.defaultLabel l { first := 0, last := ((a.freq.periodsOver a.start a.stop).n : Int) - 1 } m with
        | error e => exact ⟨fun e => Iff.rfl, fun _ _ _ hh => by cases hh⟩
        | ok r =>
          obtain ⟨ps, m1⟩ := r
          simp only
          rw [← amendPieces_alike hp]
          cases amendPieces (a.freq.periodsOver a.start a.stop) a.amendments ps with
          | error e => exact ⟨fun e => Iff.rfl, fun _ _ _ hh => by cases hh⟩
          | ok qs =>
            simp only
            refine ⟨fun e => by simp, ?_⟩
            intro f ps' m2 hh
            cases hh
            exact ⟨_, hp, rfl⟩
  have hl := hl a.layout h
  have hlay : a'.layout = a.layout.respell ρ := by rw [ha']
  unfold Args.read
  rw [hlay]
  revert hl
  cases a.layout with
  | label l =>
    intro _
    exact ⟨fun e => by simp only [Layout.respell], fun _ _ _ hh => by cases hh⟩
  | pattern p =>
    cases p with
    | list xs => exact fun hl => hl
    | rp id =>
      intro _
      exact ⟨fun e => by simp only [Layout.respell], fun _ _ _ hh => by cases hh⟩
  | organizer c es => exact fun hl => hl
  | organizerRP c i => exact fun hl => hl

/-! ### Rules -/

theorem snap_sameAs {f g : Freq} (h : f.SameAs g) (t : Time) : snap f t = snap g t := (h t).1

theorem Frame.Alike.of_start {f g : Frame} (h1 : f.freq.SameAs g.freq) (h2 : f.n = g.n) (h3 : f.unitStart 0 = g.unitStart 0) : f.Alike g := by
  refine ⟨h1, ?_, h2⟩
  unfold Frame.unitStart at h3
  rw [← h1.facts.1] at h3
  have := f.freq.base.startOf_inj h3
  unfold Frame.ord at this
  omega

end TB
