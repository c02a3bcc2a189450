import Mathlib.Algebra.Module.Pi
import Mathlib.Algebra.Module.Prod
import Mathlib.Data.List.Basic
import Verif.Model.State
import Verif.Model.Time
import Verif.Props.Schemes

/-!
# C98: the states of all the objects are one vector
-/

set_option linter.unusedSimpArgs false
set_option linter.unusedSectionVars false

namespace MD.State

/-! ## Specification -/

/-- How many nodes each line has, and how many points, rods and bodies there are. -/
structure Shape where
  lines : List ℕ
  points : ℕ
  rods : ℕ
  bodies : ℕ
deriving DecidableEq

/-- One vector for all the objects: a pair for the node `j` of the line `i`, for each point, rod and
body.  Sums and multiples are those of each component. -/
abbrev All (V X W : Type) : Type := (ℕ → ℕ → V × V) × (ℕ → V × V) × (ℕ → X × W) × (ℕ → X × W)

/-- The state of a system of that shape with these components. -/
def enc {V X W : Type} (sh : Shape) (e : All V X W) : St V X W :=
  ⟨sh.lines.zipIdx.map fun p =>
    ((List.range p.1).map fun j => (e.1 p.2 j).1, (List.range p.1).map fun j => (e.1 p.2 j).2),
   (List.range sh.points).map e.2.1, (List.range sh.rods).map e.2.2.1,
   (List.range sh.bodies).map e.2.2.2⟩

/-- The shape of a state. -/
def shape {V X W : Type} (s : St V X W) : Shape :=
  ⟨s.lines.map (·.1.length), s.points.length, s.rods.length, s.bodies.length⟩

/-- Each line has as many velocities as positions. -/
def Whole {V X W : Type} (s : St V X W) : Prop := ∀ l ∈ s.lines, l.1.length = l.2.length

section
variable {V X W : Type}

theorem list_enc {α : Type} (l : List α) (d : α) : (List.range l.length).map (fun i => l.getD i d) = l := by
  apply List.ext_getElem
  · simp
  · intro i h1 h2
    simp at h1
    simp [List.getD, h1]

/-- Every state is given by its components. -/
theorem C98_every [Inhabited V] [Inhabited X] [Inhabited W] (s : St V X W) (h : Whole s) :
    ∃ e, enc (shape s) e = s := by
  refine ⟨⟨fun i j => (((s.lines.getD i ([], [])).1.getD j default),
    ((s.lines.getD i ([], [])).2.getD j default)), fun i => s.points.getD i default,
    fun i => s.rods.getD i default, fun i => s.bodies.getD i default⟩, ?_⟩
  obtain ⟨lines, points, rods, bodies⟩ := s
  unfold enc shape
  simp only [St.mk.injEq]
  refine ⟨?_, list_enc _ _, list_enc _ _, list_enc _ _⟩
  apply List.ext_getElem
  · simp
  · intro i h1 h2
    have hw := h _ (List.getElem_mem h2)
    simp only [List.getElem_map, List.getElem_zipIdx, Nat.zero_add]
    have e : lines.getD i ([], []) = lines[i] := by simp [List.getD, h2]
    rw [e]
    apply Prod.ext
    · exact list_enc _ _
    · dsimp only
      rw [hw]
      exact list_enc _ _

/-- Its components are determined, and independent of each other: two vectors give the same state of a
system exactly if they agree in each of its components. -/
theorem C98_components (sh : Shape) (e e' : All V X W) :
    enc sh e = enc sh e' ↔
      (∀ i (h : i < sh.lines.length) j, j < sh.lines[i] → e.1 i j = e'.1 i j) ∧
      (∀ i < sh.points, e.2.1 i = e'.2.1 i) ∧ (∀ i < sh.rods, e.2.2.1 i = e'.2.2.1 i) ∧
      ∀ i < sh.bodies, e.2.2.2 i = e'.2.2.2 i := by
  unfold enc
  simp only [St.mk.injEq, List.map_inj_left, List.mem_range]
  refine and_congr ?_ Iff.rfl
  constructor
  · intro h i hi j hj
    have hm : (sh.lines[i], i) ∈ sh.lines.zipIdx := by
      rw [List.mem_zipIdx_iff_getElem?]
      simp [hi]
    have := h _ hm
    simp only [Prod.mk.injEq, List.map_inj_left, List.mem_range] at this
    exact Prod.ext (this.1 j hj) (this.2 j hj)
  · rintro h ⟨n, i⟩ hm
    rw [List.mem_zipIdx_iff_getElem?] at hm
    dsimp only at hm
    obtain ⟨hi, rfl⟩ := List.getElem?_eq_some_iff.1 hm
    simp only [Prod.mk.injEq, List.map_inj_left, List.mem_range]
    exact ⟨fun j hj => by rw [h i hi j hj], fun j hj => by rw [h i hi j hj]⟩

theorem shape_enc (sh : Shape) (e : All V X W) : shape (enc sh e) = sh ∧ Whole (enc sh e) := by
  constructor
  · unfold shape enc
    obtain ⟨l, a, b, c⟩ := sh
    simp [List.map_map, Function.comp_def]
  · intro l hl
    simp only [enc, List.mem_map] at hl
    obtain ⟨p, -, rfl⟩ := hl
    simp

/-! ## Two states of the same shape -/

theorem mapM_pure {α β : Type} (f : α → Except Err β) (g : α → β) (l : List α)
    (h : ∀ x ∈ l, f x = .ok (g x)) : l.mapM f = .ok (l.map g) := by
  induction l with
  | nil => rfl
  | cons x l ih =>
    simp [List.mapM_cons, h x (by simp), ih fun y hy => h y (by simp [hy])]
    rfl

theorem zip_mapM {ι α β γ : Type} (f : α → β → Except Err γ) (l : List ι) (a : ι → α) (b : ι → β)
    (c : ι → γ) (h : ∀ i ∈ l, f (a i) (b i) = .ok (c i)) :
    ((l.map a).zip (l.map b)).mapM (fun p => f p.1 p.2) = .ok (l.map c) := by
  induction l with
  | nil => rfl
  | cons x l ih =>
    simp [List.mapM_cons, h x (by simp), ih fun y hy => h y (by simp [hy])]
    rfl

theorem both_map {ι α β γ : Type} (f : α → β → Except Err γ) (l : List ι) (a : ι → α) (b : ι → β)
    (c : ι → γ) (h : ∀ i ∈ l, f (a i) (b i) = .ok (c i)) :
    both f (l.map a) (l.map b) = .ok (l.map c) := by
  unfold both
  rw [if_neg (by simp), zip_mapM f l a b c h]

theorem each_map {ι α : Type} (f : α → α → Except Err α) (l : List ι) (a b c : ι → α)
    (h : ∀ i ∈ l, f (a i) (b i) = .ok (c i)) : each f (l.map a) (l.map b) = .ok (l.map c) := by
  unfold each
  rw [if_neg (by simp), zip_mapM f l a b c h]

theorem lineLoop_map {ι : Type} (f : V × V → V × V → V × V) (l : List ι) (a b : ι → V × V) :
    lineLoop f (l.map fun j => (a j).1, l.map fun j => (a j).2)
      (l.map fun j => (b j).1, l.map fun j => (b j).2) =
      .ok (l.map fun j => (f (a j) (b j)).1, l.map fun j => (f (a j) (b j)).2) := by
  unfold lineLoop
  rw [if_neg (by simp)]
  have e : List.zipWith f
      ((l.map fun j => (a j).1).zip (l.map fun j => (a j).2))
      ((l.map fun j => (b j).1).zip (l.map fun j => (b j).2)) = l.map fun j => f (a j) (b j) := by
    induction l with
    | nil => rfl
    | cons x l ih => simpa using ih
  dsimp only
  rw [e]
  simp [List.map_map, Function.comp_def]

theorem lineChecked_map {ι : Type} (f : V × V → V × V → V × V) (l : List ι) (a b : ι → V × V) :
    lineChecked f (l.map fun j => (a j).1, l.map fun j => (a j).2)
      (l.map fun j => (b j).1, l.map fun j => (b j).2) =
      .ok (l.map fun j => (f (a j) (b j)).1, l.map fun j => (f (a j) (b j)).2) := by
  unfold lineChecked
  rw [if_neg (by simp), lineLoop_map]

/-- The components of what `combine` gives. -/
def comb (fp : V × V → V × V → V × V) (fr : X × W → X × W → X × W) (a b : All V X W) : All V X W :=
  (fun i j => fp (a.1 i j) (b.1 i j), fun i => fp (a.2.1 i) (b.2.1 i),
    fun i => fr (a.2.2.1 i) (b.2.2.1 i), fun i => fr (a.2.2.2 i) (b.2.2.2 i))

theorem combine_enc (fl : List V × List V → List V × List V → Except Err (List V × List V))
    (fp : V × V → V × V → V × V) (fr : X × W → X × W → X × W)
    (hl : fl = lineChecked fp ∨ fl = lineLoop fp) (sh : Shape) (a b : All V X W) :
    combine fl fp fr (enc sh a) (enc sh b) = .ok (enc sh (comb fp fr a b)) := by
  have h1 : both fl (enc sh a).lines (enc sh b).lines = .ok (enc sh (comb fp fr a b)).lines := by
    refine both_map fl _ _ _ _ fun p _ => ?_
    rcases hl with rfl | rfl
    · exact lineChecked_map fp (List.range p.1) (a.1 p.2) (b.1 p.2)
    · exact lineLoop_map fp (List.range p.1) (a.1 p.2) (b.1 p.2)
  have h2 : both (fun x y => .ok (fp x y)) (enc sh a).points (enc sh b).points =
      .ok (enc sh (comb fp fr a b)).points := both_map _ _ _ _ _ fun p _ => rfl
  have h3 : both (fun x y => .ok (fr x y)) (enc sh a).rods (enc sh b).rods =
      .ok (enc sh (comb fp fr a b)).rods := both_map _ _ _ _ _ fun p _ => rfl
  have h4 : both (fun x y => .ok (fr x y)) (enc sh a).bodies (enc sh b).bodies =
      .ok (enc sh (comb fp fr a b)).bodies := both_map _ _ _ _ _ fun p _ => rfl
  unfold combine
  rw [h1]
  show (both _ _ _ >>= _) = _
  rw [h2]
  show (both _ _ _ >>= _) = _
  rw [h3]
  show (both _ _ _ >>= _) = _
  rw [h4]
  rfl

end

/-! ## The operations -/

section
variable {K V P Q W : Type} [Field K] [AddCommGroup V] [Module K V] [AddCommGroup P] [Module K P]
variable [AddCommGroup Q] [Module K Q] [AddCommGroup W] [Module K W]
variable (sh : Shape) (a b : All V (P × Q) W)

/-- C98: the sum of states, and of derivatives, is the sum of the vectors. -/
theorem C98_add : add (enc sh a) (enc sh b) = .ok (enc sh (a + b)) :=
  combine_enc _ _ _ (Or.inl rfl) sh a b

/-- C98: the difference of derivatives is the difference of the vectors. -/
theorem C98_rate_difference : dsub (enc sh a) (enc sh b) = .ok (enc sh (a - b)) :=
  combine_enc _ _ _ (Or.inl rfl) sh a b

/-- The difference of states of points and nodes, the sum of those of rods and bodies. -/
def ssub (a b : All V (P × Q) W) : All V (P × Q) W :=
  (a.1 - b.1, a.2.1 - b.2.1, a.2.2.1 + b.2.2.1, a.2.2.2 + b.2.2.2)

/-- C98: the difference of states is that of points and nodes. -/
theorem C98_state_difference_partial :
    sub (enc sh a) (enc sh b) = .ok (enc sh (ssub a b)) :=
  combine_enc _ _ _ (Or.inl rfl) sh a b

/-- C98, false: of rods and bodies it is the sum: it is the difference of the states only if twice
the second state vanishes. -/
theorem C98_state_difference_false (i : ℕ) :
    (i < sh.rods → sub (enc sh a) (enc sh b) = .ok (enc sh (a - b)) → (2 : ℕ) • b.2.2.1 i = 0) ∧
    (i < sh.bodies → sub (enc sh a) (enc sh b) = .ok (enc sh (a - b)) → (2 : ℕ) • b.2.2.2 i = 0) := by
  rw [C98_state_difference_partial]
  constructor
  · intro hi h
    have := ((C98_components sh _ _).1 (Except.ok.inj h)).2.2.1 i hi
    have e : a.2.2.1 i + b.2.2.1 i = a.2.2.1 i - b.2.2.1 i := this
    rw [two_nsmul]
    rw [sub_eq_add_neg] at e
    have := add_left_cancel e
    nth_rw 1 [this]
    exact neg_add_cancel _
  · intro hi h
    have := ((C98_components sh _ _).1 (Except.ok.inj h)).2.2.2 i hi
    have e : a.2.2.2 i + b.2.2.2 i = a.2.2.2 i - b.2.2.2 i := this
    rw [two_nsmul]
    rw [sub_eq_add_neg] at e
    have := add_left_cancel e
    nth_rw 1 [this]
    exact neg_add_cancel _

/-- C98: a derivative times a time is the multiple of the vector. -/
theorem C98_scale (dt : K) : scale dt (enc sh a) = .ok (enc sh (dt • a)) := by
  have h1 : ((enc sh a).lines.mapM fun l =>
      if l.2.length < l.1.length then (.error .undef : Except Err (List V × List V))
      else .ok (l.1.map (dt • ·), (l.2.take l.1.length).map (dt • ·))) =
      .ok (enc sh (dt • a)).lines := by
    rw [mapM_pure _ (fun l => (l.1.map (dt • ·), (l.2.take l.1.length).map (dt • ·)))]
    · congr 1
      simp [enc, List.map_map, Function.comp_def]
    · intro l hl
      have := (shape_enc sh a).2 l hl
      rw [if_neg (by omega)]
  unfold scale
  rw [h1]
  show Except.ok _ = _
  congr 1
  simp [enc, List.map_map, Function.comp_def]
  exact ⟨fun _ _ => rfl, fun _ _ => rfl, fun _ _ => rfl⟩

/-- C98: mixing states, and derivatives, is the weighted sum of the vectors. -/
theorem C98_mix (f : K) : mix (enc sh a) (enc sh b) f = .ok (enc sh (Time.mix a b f)) := by
  have h1 : each (lineMix f) (enc sh a).lines (enc sh b).lines =
      .ok (enc sh (Time.mix a b f)).lines := by
    refine each_map _ _ _ _ _ fun p _ => ?_
    unfold lineMix
    rw [lineLoop_map _ (List.range p.1) (a.1 p.2) (b.1 p.2)]
    show Except.ok _ = _
    congr 1
    apply Prod.ext
    · rfl
    · dsimp only
      rw [List.drop_eq_nil_of_le (by simp), List.append_nil]
      rfl
  have h2 : each (fun x y => .ok ((1 - f) • x.1 + f • y.1, (1 - f) • x.2 + f • y.2))
      (enc sh a).points (enc sh b).points = .ok (enc sh (Time.mix a b f)).points :=
    each_map _ _ _ _ _ fun p _ => rfl
  have h3 : each (fun x y => .ok (((1 - f) • x.1.1 + f • y.1.1, (1 - f) • x.1.2 + f • y.1.2),
      (1 - f) • x.2 + f • y.2)) (enc sh a).rods (enc sh b).rods =
      .ok (enc sh (Time.mix a b f)).rods := each_map _ _ _ _ _ fun p _ => rfl
  have h4 : each (fun x y => .ok (((1 - f) • x.1.1 + f • y.1.1, (1 - f) • x.1.2 + f • y.1.2),
      (1 - f) • x.2 + f • y.2)) (enc sh a).bodies (enc sh b).bodies =
      .ok (enc sh (Time.mix a b f)).bodies := each_map _ _ _ _ _ fun p _ => rfl
  unfold mix
  rw [h1]
  show (each _ _ _ >>= _) = _
  rw [h2]
  show (each _ _ _ >>= _) = _
  rw [h3]
  show (each _ _ _ >>= _) = _
  rw [h4]
  rfl

/-- The predictor of Newmark's scheme in each component. -/
def newmarkAll (pose : W → P × Q) (g be : K) (a b : All V (P × Q) W) (dt : K) : All V (P × Q) W :=
  (fun i j => Time.newmarkPL g be (a.1 i j) (b.1 i j) dt,
   fun i => Time.newmarkPL g be (a.2.1 i) (b.2.1 i) dt,
   fun i => Time.newmarkRB pose g be (a.2.2.1 i) (b.2.2.1 i) dt,
   fun i => Time.newmarkRB pose g be (a.2.2.2 i) (b.2.2.2 i) dt)

/-- The predictor of Wilson's scheme in each component. -/
def wilsonAll (pose : W → P × Q) (a b : All V (P × Q) W) (tau dt : K) : All V (P × Q) W :=
  (fun i j => Time.wilsonPL (a.1 i j) (b.1 i j) tau dt,
   fun i => Time.wilsonPL (a.2.1 i) (b.2.1 i) tau dt,
   fun i => Time.wilsonRB pose (a.2.2.1 i) (b.2.2.1 i) tau dt,
   fun i => Time.wilsonRB pose (a.2.2.2 i) (b.2.2.2 i) tau dt)

/-- C98: the predictors act on each component by itself. -/
theorem C98_predictors (pose : W → P × Q) (g be dt tau : K) :
    newmark pose g be (enc sh a) (enc sh b) dt = .ok (enc sh (newmarkAll pose g be a b dt)) ∧
    wilson pose (enc sh a) (enc sh b) tau dt = .ok (enc sh (wilsonAll pose a b tau dt)) :=
  ⟨combine_enc _ _ _ (Or.inr rfl) sh a b, combine_enc _ _ _ (Or.inr rfl) sh a b⟩

/-! ## Sizes -/

theorem both_ok_length {α β γ : Type} (f : α → β → γ) (as : List α) (bs : List β)
    (h : as.length = bs.length) : ∃ c, both (fun x y => .ok (f x y)) as bs = .ok c := by
  unfold both
  rw [if_neg (by simpa using h)]
  exact ⟨_, mapM_pure _ (fun p => f p.1 p.2) _ fun _ _ => rfl⟩

theorem lines_sizes (f : V × V → V × V → V × V) (as bs : List (List V × List V))
    (ha : ∀ l ∈ as, l.1.length = l.2.length) (hb : ∀ l ∈ bs, l.1.length = l.2.length) :
    (as.map (·.1.length) = bs.map (·.1.length) ∧ ∃ c, both (lineChecked f) as bs = .ok c) ∨
    (as.map (·.1.length) ≠ bs.map (·.1.length) ∧ both (lineChecked f) as bs = .error .size) := by
  by_cases h : as.length = bs.length
  swap
  · right
    refine ⟨fun e => h (by simpa using congrArg List.length e), ?_⟩
    unfold both
    rw [if_pos h]
  unfold both
  rw [if_neg (by simpa using h)]
  induction as generalizing bs with
  | nil =>
    cases bs with
    | nil => exact Or.inl ⟨rfl, [], rfl⟩
    | cons => simp at h
  | cons x as ih =>
    cases bs with
    | nil => simp at h
    | cons y bs =>
      have hx := ha x (by simp)
      have hy := hb y (by simp)
      rw [List.zip_cons_cons, List.mapM_cons]
      by_cases e : x.1.length = y.1.length
      · have hc : ∃ c, lineChecked f x y = .ok c := by
          unfold lineChecked lineLoop
          rw [if_neg (by omega)]
          dsimp only
          rw [if_neg (by omega)]
          exact ⟨_, rfl⟩
        obtain ⟨c, hc⟩ := hc
        rw [hc]
        rcases ih bs (fun l hl => ha l (by simp [hl])) (fun l hl => hb l (by simp [hl]))
          (by simpa using h) with ⟨h1, d, h2⟩ | ⟨h1, h2⟩
        · left
          refine ⟨by simp [e, h1], c :: d, ?_⟩
          show (_ >>= _) = _
          rw [h2]
          rfl
        · right
          refine ⟨by simp only [List.map_cons, e, ne_eq, List.cons.injEq, true_and]; exact h1, ?_⟩
          show (_ >>= _) = _
          rw [h2]
          rfl
      · right
        refine ⟨by simp [e], ?_⟩
        have hc : lineChecked f x y = .error .size := by
          unfold lineChecked
          rw [if_pos (Or.inl e)]
        show (lineChecked f x y >>= _) = _
        rw [hc]
        rfl

theorem combine_sizes (f fp : V × V → V × V → V × V)
    (fr : (P × Q) × W → (P × Q) × W → (P × Q) × W) (s s' : St V (P × Q) W) (hs : Whole s)
    (hs' : Whole s') (h : shape s ≠ shape s') :
    combine (lineChecked f) fp fr s s' = .error .size := by
  unfold combine
  rcases lines_sizes f s.lines s'.lines hs hs' with ⟨h1, c, hc⟩ | ⟨-, hc⟩
  swap
  · rw [hc]
    rfl
  rw [hc]
  show (both _ _ _ >>= _) = _
  by_cases h2 : s.points.length = s'.points.length
  swap
  · rw [both, if_pos h2]
    rfl
  obtain ⟨c, hc⟩ := both_ok_length fp _ _ h2
  rw [hc]
  show (both _ _ _ >>= _) = _
  by_cases h3 : s.rods.length = s'.rods.length
  swap
  · rw [both, if_pos h3]
    rfl
  obtain ⟨c, hc⟩ := both_ok_length fr _ _ h3
  rw [hc]
  show (both _ _ _ >>= _) = _
  by_cases h4 : s.bodies.length = s'.bodies.length
  swap
  · rw [both, if_pos h4]
    rfl
  exact absurd (by simp [shape, h1, h2, h3, h4]) h

/-- C98: states of systems of different shapes are neither added nor subtracted: the error says that the
sizes differ. -/
theorem C98_sizes (s s' : St V (P × Q) W) (hs : Whole s) (hs' : Whole s') (h : shape s ≠ shape s') :
    add s s' = .error .size ∧ sub s s' = .error .size ∧ dsub s s' = .error .size :=
  ⟨combine_sizes _ _ _ s s' hs hs' h, combine_sizes _ _ _ s s' hs hs' h,
    combine_sizes _ _ _ s s' hs hs' h⟩

/-- C98, false for mixing: nothing is compared, and of a shorter first state only what it has is
mixed. -/
theorem C98_mix_sizes_false (f : K) (x y z : V × V) :
    mix (⟨[], [x], [], []⟩ : St V (P × Q) W) ⟨[], [y, z], [], []⟩ f =
      mix (⟨[], [x], [], []⟩ : St V (P × Q) W) ⟨[], [y], [], []⟩ f ∧
    mix (⟨[], [x, z], [], []⟩ : St V (P × Q) W) ⟨[], [y], [], []⟩ f = .error .undef :=
  ⟨rfl, rfl⟩

/-- C98: the sizes of the two vectors of one line are not compared by the predictors: a line, of either
of the two states, with fewer velocities (or accelerations) than the first vector of the first state has
elements is read past its end. -/
theorem C98_ragged_line (pose : W → P × Q) (g be dt tau : K) (x y : List V × List V)
    (h : x.2.length < x.1.length ∨ y.1.length < x.1.length ∨ y.2.length < x.1.length) :
    newmark pose g be (⟨[x], [], [], []⟩ : St V (P × Q) W) ⟨[y], [], [], []⟩ dt = .error .undef ∧
    wilson pose (⟨[x], [], [], []⟩ : St V (P × Q) W) ⟨[y], [], [], []⟩ tau dt = .error .undef ∧
    mix (⟨[x], [], [], []⟩ : St V (P × Q) W) ⟨[y], [], [], []⟩ dt = .error .undef := by
  have key : ∀ f : V × V → V × V → V × V, lineLoop f x y = .error .undef := by
    intro f
    unfold lineLoop
    dsimp only
    rw [if_pos h]
  refine ⟨?_, ?_, ?_⟩
  · simp [newmark, combine, both, key, bind, Except.bind]
  · simp [wilson, combine, both, key, bind, Except.bind]
  · simp [mix, each, lineMix, key, bind, Except.bind]

/-! ## Whole computations -/

/-- The expressions of the time schemes. -/
inductive Term (K : Type)
  | leaf (k : ℕ)
  | add (a b : Term K)
  | sub (a b : Term K)
  | dsub (a b : Term K)
  | scale (dt : K) (a : Term K)
  | mix (a b : Term K) (f : K)
  | newmark (g be : K) (a b : Term K) (dt : K)
  | wilson (a b : Term K) (tau dt : K)

/-- What the code computes: the first error ends it. -/
def Term.run (pose : W → P × Q) (env : ℕ → St V (P × Q) W) : Term K → Except Err (St V (P × Q) W)
  | .leaf k => .ok (env k)
  | .add a b => do State.add (← a.run pose env) (← b.run pose env)
  | .sub a b => do State.sub (← a.run pose env) (← b.run pose env)
  | .dsub a b => do State.dsub (← a.run pose env) (← b.run pose env)
  | .scale dt a => do State.scale dt (← a.run pose env)
  | .mix a b f => do State.mix (← a.run pose env) (← b.run pose env) f
  | .newmark g be a b dt => do State.newmark pose g be (← a.run pose env) (← b.run pose env) dt
  | .wilson a b tau dt => do State.wilson pose (← a.run pose env) (← b.run pose env) tau dt

/-- The vector that the expression stands for. -/
def Term.value (pose : W → P × Q) (env : ℕ → All V (P × Q) W) : Term K → All V (P × Q) W
  | .leaf k => env k
  | .add a b => a.value pose env + b.value pose env
  | .sub a b => ssub (a.value pose env) (b.value pose env)
  | .dsub a b => a.value pose env - b.value pose env
  | .scale dt a => dt • a.value pose env
  | .mix a b f => Time.mix (a.value pose env) (b.value pose env) f
  | .newmark g be a b dt => newmarkAll pose g be (a.value pose env) (b.value pose env) dt
  | .wilson a b tau dt => wilsonAll pose (a.value pose env) (b.value pose env) tau dt

/-- C98: an expression of any length is computed without an error, and gives the state of the vector it
stands for. -/
theorem C98_expressions (pose : W → P × Q) (env : ℕ → All V (P × Q) W) (t : Term K) :
    t.run pose (fun k => enc sh (env k)) = .ok (enc sh (t.value pose env)) := by
  induction t with
  | leaf k => rfl
  | add a b iha ihb =>
    show (a.run _ _ >>= fun x => b.run _ _ >>= fun y => State.add x y) = _
    rw [iha, ihb]; exact C98_add sh _ _
  | sub a b iha ihb =>
    show (a.run _ _ >>= fun x => b.run _ _ >>= fun y => State.sub x y) = _
    rw [iha, ihb]; exact C98_state_difference_partial sh _ _
  | dsub a b iha ihb =>
    show (a.run _ _ >>= fun x => b.run _ _ >>= fun y => State.dsub x y) = _
    rw [iha, ihb]; exact C98_rate_difference sh _ _
  | scale dt a iha =>
    show (a.run _ _ >>= fun x => State.scale dt x) = _
    rw [iha]; exact C98_scale sh _ dt
  | mix a b f iha ihb =>
    show (a.run _ _ >>= fun x => b.run _ _ >>= fun y => State.mix x y f) = _
    rw [iha, ihb]; exact C98_mix sh _ _ f
  | newmark g be a b dt iha ihb =>
    show (a.run _ _ >>= fun x => b.run _ _ >>= fun y => State.newmark pose g be x y dt) = _
    rw [iha, ihb]; exact (C98_predictors sh _ _ pose g be dt 0).1
  | wilson a b tau dt iha ihb =>
    show (a.run _ _ >>= fun x => b.run _ _ >>= fun y => State.wilson pose x y tau dt) = _
    rw [iha, ihb]; exact (C98_predictors sh _ _ pose 0 0 dt tau).2

/-- The state after a step of Runge and Kutta's scheme of fourth order, source/Time.cpp:427: the leaf
0 is the state, the leaf `k + 1` the derivative `k`. -/
def rk4Term (dt : K) : Term K :=
  .add (.add (.leaf 0) (.scale (dt / 6) (.add (.leaf 1) (.leaf 4))))
    (.scale (dt / 3) (.add (.leaf 2) (.leaf 3)))

/-- The state after a step of Adams and Bashforth's scheme, source/Time.cpp:463-482. -/
def abTerm (n : ℕ) (dt : K) : Term K :=
  match n with
  | 0 => .add (.leaf 0) (.scale dt (.leaf 1))
  | 1 => .sub (.add (.leaf 0) (.scale (dt * (3 / 2)) (.leaf 1))) (.scale (dt * (1 / 2)) (.leaf 2))
  | 2 => .add (.sub (.add (.leaf 0) (.scale (dt * 23 / 12) (.leaf 1))) (.scale (dt * 4 / 3) (.leaf 2)))
      (.scale (dt * 5 / 12) (.leaf 3))
  | 3 => .sub (.add (.sub (.add (.leaf 0) (.scale (dt * 55 / 24) (.leaf 1)))
      (.scale (dt * 59 / 24) (.leaf 2))) (.scale (dt * 37 / 24) (.leaf 3)))
      (.scale (dt * 3 / 8) (.leaf 4))
  | _ => .add (.sub (.add (.sub (.add (.leaf 0) (.scale (dt * 1901 / 720) (.leaf 1)))
      (.scale (dt * 1387 / 360) (.leaf 2))) (.scale (dt * 109 / 30) (.leaf 3)))
      (.scale (dt * 637 / 360) (.leaf 4))) (.scale (dt * 251 / 720) (.leaf 5))

/-- C98: the steps of the schemes, as they are modelled for one vector, are those of the states of all the
objects. -/
theorem C98_schemes (pose : W → P × Q) (dt : K) (n : ℕ) (r : All V (P × Q) W)
    (rd : ℕ → All V (P × Q) W) :
    (rk4Term dt).run pose (fun k => enc sh (Nat.casesOn k r rd)) =
      .ok (enc sh (r + (dt / 6) • (rd 0 + rd 3) + (dt / 3) • (rd 1 + rd 2))) ∧
    (abTerm n dt).run pose (fun k => enc sh (Nat.casesOn k r rd)) =
      .ok (enc sh (Time.abFormula ssub n dt r rd)) := by
  constructor
  · exact C98_expressions sh pose (fun k => Nat.casesOn k r rd) (rk4Term dt)
  · rw [C98_expressions sh pose (fun k => Nat.casesOn k r rd) (abTerm n dt)]
    rcases n with _ | _ | _ | _ | n <;> rfl

end

/-! ## A case -/

/-- A line of two nodes, a line of one node, a point and a rod. -/
def sh0 : Shape := ⟨[2, 1], 1, 1, 0⟩

/-- A vector for it. -/
def e0 (c : ℚ) : All ℚ (ℚ × ℚ) ℚ :=
  (fun i j => (c + i, c * (j + 1)), fun _ => (c, 2 * c), fun _ => ((c, c + 1), 3 * c), fun _ => ((0, 0), 0))

example : (enc sh0 (e0 1)).lines = [([1, 1], [1, 2]), ([2], [1])] ∧
    (enc sh0 (e0 1)).points = [(1, 2)] ∧ (enc sh0 (e0 1)).rods = [((1, 2), 3)] ∧
    (enc sh0 (e0 1)).bodies = [] := by decide +kernel

/-- The second states are not zero: the difference of rods is wrong. -/
example : sub (enc sh0 (e0 1)) (enc sh0 (e0 1)) ≠ .ok (enc sh0 (e0 1 - e0 1)) := by
  intro h
  have := (C98_state_difference_false sh0 (e0 1) (e0 1) 0).1 (by decide) h
  exact absurd this (by decide +kernel)

/-- A state with a node more. -/
example : shape (enc sh0 (e0 1)) ≠ shape (enc ⟨[2, 2], 1, 1, 0⟩ (e0 1)) ∧ Whole (enc sh0 (e0 1)) ∧
    Whole (enc ⟨[2, 2], 1, 1, 0⟩ (e0 1)) := by
  rw [(shape_enc _ _).1, (shape_enc _ _).1]
  exact ⟨by decide, (shape_enc _ _).2, (shape_enc _ _).2⟩

end MD.State
