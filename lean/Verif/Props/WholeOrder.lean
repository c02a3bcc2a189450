import Verif.Props.WholeSeparate

/-!
# C101: rods without length, where the order matters
-/

set_option linter.unusedSimpArgs false
set_option linter.unnecessarySeqFocus false

namespace MD.Whole

open MD.Mooring Matrix

/-- `Line::getEndSegmentMoment` of a line of bending stiffness 1, source/Line.cpp:728-769: the direction of the segment at the end divided by
its length. -/
noncomputable def bend (N : ℕ) (s : Shape) (p : EndPt) (e : REnd) : V :=
  let d := match p with
    | .TOP => s.r N - s.r (N - 1)
    | .BOTTOM => s.r 1 - s.r 0
  let v := (1 / (d ⬝ᵥ d)) • d
  if (p = .TOP) = (e = .A) then v else -v

/-- Two coupled rods without length, as used to clamp the ends of lines, and a line of one segment from one to the other.  The line begins at the
rod of number `a`. -/
noncomputable def links (a : ℕ) : System Unit Unit Unit Unit Unit Unit where
  nb := 0
  nr := 2
  np := 0
  nl := 1
  bkind _ := .FREE
  rkind _ := .COUPLED
  pkind _ := .FIXED
  pts _ := []
  rods _ := []
  ends _ := []
  endsA i := if i < 2 then [(0, if i = a then .BOTTOM else .TOP)] else []
  endsB _ := []
  rodN _ := 0
  rodLen _ := 0
  q0 _ := 0
  lineN _ := 1
  mat _ := 1
  pose x := (x.1, ())
  between _ _ := ()
  one := ()
  sea _ _ := ()
  moment _ s _ p e := bend 1 s p e
  unit v := (1 / √(v ⬝ᵥ v)) • v
  lineF _ _ _ := (fun _ => 0, ())
  pointF _ _ _ _ _ := ()
  pointA _ := 0
  rodF _ _ _ _ _ _ _ _ _ := ()
  rodA _ := 0
  pinA _ _ := 0
  quatA _ _ := ()
  bodyF _ _ _ _ _ _ _ _ _ := ()
  bodyA _ := 0
  bodyPinA _ _ := 0

theorem links_sound (a : ℕ) (ha : a < 2) : Sound (links a) where
  once h h' x hx hx' := by
    have : a = 0 ∨ a = 1 := by omega
    rcases h with i | i | i <;> rcases h' with j | j | j <;> simp only [Holder.list, links, List.not_mem_nil] at hx hx'
    split_ifs at hx hx' <;> simp_all <;> omega
  lineN _ := by simp [links]
  pts _ _ _ h := by cases h
  rods _ _ _ h := by cases h
  ptsKind _ _ h := by cases h
  rodsKind _ _ h := by cases h
  rodsNum _ _ h := by cases h
  ptsNum _ _ h := by cases h
  bodyNum _ h := by rcases h with ⟨_, h⟩ | ⟨_, h⟩ <;> cases h

/-- The numbers of the rods exchanged. -/
def exchangeRods : Order := ⟨Equiv.refl _, Equiv.swap 0 1, Equiv.refl _, Equiv.refl _⟩

theorem links_reordered : Reordered exchangeRods (links 0) (links 1) := by
  have sw : ∀ i, i < 2 ∨ 2 ≤ i := fun i => by omega
  have two : ∀ i, Equiv.swap 0 1 i < 2 ↔ i < 2 := by
    intro i
    rcases i with _ | _ | i
    · simp
    · simp
    · rw [Equiv.swap_apply_of_ne_of_ne (by omega) (by omega)]
  constructor
  case rodIds => exact two
  case endsA =>
    intro i
    rcases i with _ | _ | i
    · simp [links, exchangeRods, Order.names, Names.endOf]
    · simp [links, exchangeRods, Order.names, Names.endOf]
    · simp [links, exchangeRods, Order.names, Names.endOf, Equiv.swap_apply_of_ne_of_ne]
  case held =>
    intro k hk p
    obtain rfl : k = 0 := by
      have : k < 1 := hk
      omega
    cases p
    case TOP => exact ⟨.rodA 0, by simp [Holder.There, links], by simp [Holder.list, links]⟩
    case BOTTOM => exact ⟨.rodA 1, by simp [Holder.There, links], by simp [Holder.list, links]⟩
  all_goals (intros; rfl)

/-- The rod with the first end of the line is at the origin, the other one a metre away along `x`, and has just been told to go a metre away
along `y`. -/
noncomputable def linked (a : ℕ) : Mem Unit Unit Unit Unit Unit where
  t := 0
  line _ := ⟨⟨fun j => if j = 0 then 0 else ![1, 0, 0], fun _ => 0, .CANTILEVERED, .CANTILEVERED, 0, 0⟩, ()⟩
  point _ := ⟨0, 0, 0, ()⟩
  rod i := if i = a then ⟨0, (), 0, 0, 0, fun _ => 0, fun _ => 0, 0, 0, ()⟩
    else ⟨![1, 0, 0], (), 0, 0, 0, fun _ => ![1, 0, 0], fun _ => 0, 0, ((![0, 1, 0], 0), (0, 0), (0, 0)), ()⟩
  body _ := ⟨0, (), 0, 0, 1, 0, 0, ()⟩
  ground := ⟨0, (), 0, 0, 1, 0, 0, ()⟩

theorem linked_connected (a : ℕ) (ha : a < 2) : Connected (links a) (linked a) where
  point _ _ h := by cases h
  rod _ _ h := by cases h
  holds _ _ _ h := by cases h
  rodHolds i hi := by
    have h1 : a = 0 ∨ a = 1 := by omega
    have hi : i < 2 := hi
    have h2 : i = 0 ∨ i = 1 := by omega
    rcases h1 with rfl | rfl <;> rcases h2 with rfl | rfl <;>
      refine ⟨?_, ?_, ?_, ?_, ?_⟩ <;> simp [links, linked, tip]

theorem linked_same : SameMem exchangeRods.names (links 1) (linked 0) (linked 1) where
  t := rfl
  ground := rfl
  body _ _ := rfl
  rod i hi := by
    have hi : i < 2 := hi
    obtain rfl | rfl : i = 0 ∨ i = 1 := by omega
    · simp [linked, exchangeRods, Order.names]
    · simp [linked, exchangeRods, Order.names]
  point _ _ := rfl
  line _ _ := rfl

/-- The end of the line at the rod with number 0, which is updated before the other one is, is clamped in the direction to where the other
end of the line was before; with the number 1, in the direction to where it is. -/
theorem links_update (e : State Unit) :
    ((update (links 0) 0 0 e (linked 0)).line 0).s.qA = ![1, 0, 0] ∧ ((update (links 1) 0 0 e (linked 1)).line 0).s.qA = ![0, 1, 0] := by
  constructor
  · simp [update, links, linked, passBody, fairRod, stateRod, stateLines, passRod, setRod, rodEnds, passEnds, passDirs, giveEnd, giveDir, stateLine,
      momentSum, bend, List.range_succ]
  · simp [update, links, linked, passBody, fairRod, stateRod, stateLines, passRod, setRod, rodEnds, passEnds, passDirs, giveEnd, giveDir, stateLine,
      momentSum, bend, List.range_succ]

/-- C101 is false for rods without length with a line of one segment between them: the same objects, with the numbers of the two rods exchanged,
told the same, are then not in the same state. -/
theorem C101_zero_rods_false (e : State Unit) : Reordered exchangeRods (links 0) (links 1) ∧ Sound (links 0) ∧ Sound (links 1) ∧
    Connected (links 0) (linked 0) ∧ Connected (links 1) (linked 1) ∧ SameMem exchangeRods.names (links 1) (linked 0) (linked 1) ∧
    ¬ SameMem exchangeRods.names (links 1) (update (links 0) 0 0 e (linked 0)) (update (links 1) 0 0 e (linked 1)) := by
  refine ⟨links_reordered, links_sound 0 (by omega), links_sound 1 (by omega), linked_connected 0 (by omega), linked_connected 1 (by omega),
    linked_same, fun h => ?_⟩
  have h1 := congrArg (fun L => L.s.qA) (h.line 0 (by simp [links]))
  have h2 : ((update (links 1) 0 0 e (linked 1)).line 0).s.qA = ((update (links 0) 0 0 e (linked 0)).line 0).s.qA := h1
  rw [(links_update e).1, (links_update e).2] at h2
  have := congrFun h2 0
  simp at this

end MD.Whole
