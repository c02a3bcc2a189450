import Verif.Spec.Layout
import Mathlib.Tactic.Ring
import Mathlib.Data.List.Basic

/-!
# Properties C12 and C13: exchange arrays of coupled objects
-/

set_option linter.unusedSimpArgs false

namespace MD.Layout

variable {K : Type}

/-! ## Helper: one loop over widths -/

/-- what an object of the given width, and vector size, receives from `x` at `ix` -/
def block (x : List K) (ix w n : ℕ) : List (Option K) :=
  ((x.drop ix).take w).map some ++ List.replicate (n - w) none

theorem array2vec_eq (x : List K) (ix : ℕ) :
    array2vec x ix = if ix + 3 ≤ x.length then some ((x.drop ix).take 3) else none := by
  unfold array2vec
  by_cases h : ix + 3 ≤ x.length
  · rw [if_pos h, List.getElem?_eq_getElem (show ix < x.length by omega),
      List.getElem?_eq_getElem (show ix + 1 < x.length by omega),
      List.getElem?_eq_getElem (show ix + 2 < x.length by omega)]
    simp only [Option.some.injEq]
    rw [List.drop_eq_getElem_cons (show ix < x.length by omega),
      List.drop_eq_getElem_cons (show ix + 1 < x.length by omega),
      List.drop_eq_getElem_cons (show ix + 1 + 1 < x.length by omega)]
    rfl
  · rw [if_neg h]
    have : x[ix + 2]? = none := List.getElem?_eq_none (by omega)
    rw [this]
    split <;> simp_all

theorem array2vec6_eq (x : List K) (ix : ℕ) :
    array2vec6 x ix = if ix + 6 ≤ x.length then some ((x.drop ix).take 6) else none := by
  unfold array2vec6
  rw [array2vec_eq, array2vec_eq]
  by_cases h : ix + 6 ≤ x.length
  · rw [if_pos h, if_pos (by omega), if_pos (by omega)]
    simp only [Option.some.injEq]
    rw [show (6 : ℕ) = 3 + 3 from rfl, List.take_add, List.drop_drop]
  · have h' : ¬ ix + 3 + 3 ≤ x.length := by omega
    simp only [h, h', if_false]
    split <;> simp_all

theorem readOne_eq (k : Kind) (x : List K) (ix : ℕ) :
    readOne k x ix = if ix + k.width ≤ x.length then some (block x ix k.width 6, ix + k.width)
      else none := by
  cases k with
  | coupled =>
    simp only [readOne, array2vec6_eq, Kind.width, block]
    split <;> simp_all
  | pinned =>
    simp only [readOne, array2vec_eq, Kind.width, block]
    split <;> simp_all [List.replicate]

/-- all the objects of a list of (width, size of the vector) -/
def readW (x : List K) : List (ℕ × ℕ) → ℕ → List (List (Option K))
  | [], _ => []
  | (w, n) :: l, ix => block x ix w n :: readW x l (ix + w)

theorem readW_append (x : List K) (l l' : List (ℕ × ℕ)) (ix : ℕ) :
    readW x (l ++ l') ix = readW x l ix ++ readW x l' (ix + (l.map (·.1)).sum) := by
  induction l generalizing ix with
  | nil => simp [readW]
  | cons a l ih => simp [readW, ih, Nat.add_assoc]

theorem readKinds_eq (x : List K) (ks : List Kind) (ix : ℕ) (hix : ix ≤ x.length) :
    readKinds x ks ix = if ix + (ks.map Kind.width).sum ≤ x.length then
      some (readW x (ks.map fun k => (k.width, 6)) ix, ix + (ks.map Kind.width).sum) else none := by
  induction ks generalizing ix with
  | nil => simp [readKinds, readW, hix]
  | cons k ks ih =>
    simp only [readKinds, readOne_eq, List.map_cons, List.sum_cons]
    by_cases h : ix + k.width ≤ x.length
    · rw [if_pos h]
      simp only
      rw [ih _ h]
      by_cases h2 : ix + k.width + (ks.map Kind.width).sum ≤ x.length
      · rw [if_pos h2, if_pos (by omega)]
        simp [readW, Nat.add_assoc]
      · rw [if_neg h2, if_neg (by omega)]
    · rw [if_neg h, if_neg (by omega)]

theorem readPoints_eq (x : List K) (n ix : ℕ) (hix : ix ≤ x.length) :
    readPoints x n ix = if ix + 3 * n ≤ x.length then
      some (readW x (List.replicate n (3, 3)) ix, ix + 3 * n) else none := by
  induction n generalizing ix with
  | zero => simp [readPoints, readW, hix]
  | succ n ih =>
    simp only [readPoints, array2vec_eq]
    by_cases h : ix + 3 ≤ x.length
    · rw [if_pos h]
      simp only
      rw [ih _ h]
      by_cases h2 : ix + 3 + 3 * n ≤ x.length
      · rw [if_pos h2, if_pos (by omega)]
        simp [readW, List.replicate_succ, block, Nat.add_assoc]
        omega
      · rw [if_neg h2, if_neg (by omega)]
    · rw [if_neg h, if_neg (by omega)]

/-- sizes of the vectors handed to the objects -/
def Coupled.shape (c : Coupled) : List (ℕ × ℕ) :=
  c.bodies.map (fun k => (k.width, 6)) ++ c.rods.map (fun k => (k.width, 6)) ++
    List.replicate c.points (3, 3)

theorem total_eq (c : Coupled) :
    c.total = (c.bodies.map Kind.width).sum + (c.rods.map Kind.width).sum + 3 * c.points := by
  simp [Coupled.total, Coupled.widths, Nat.mul_comm, Nat.add_assoc]

theorem readAll_eq (c : Coupled) (x : List K) :
    readAll c x = if c.total ≤ x.length then some (readW x c.shape 0, c.total) else none := by
  unfold readAll
  rw [readKinds_eq x c.bodies 0 (Nat.zero_le _), total_eq]
  by_cases h1 : 0 + (c.bodies.map Kind.width).sum ≤ x.length
  · rw [if_pos h1]
    simp only
    rw [readKinds_eq x c.rods _ h1]
    by_cases h2 : 0 + (c.bodies.map Kind.width).sum + (c.rods.map Kind.width).sum ≤ x.length
    · rw [if_pos h2]
      simp only
      rw [readPoints_eq x c.points _ h2]
      by_cases h3 : 0 + (c.bodies.map Kind.width).sum + (c.rods.map Kind.width).sum
          + 3 * c.points ≤ x.length
      · rw [if_pos h3, if_pos (by omega)]
        simp only [Option.some.injEq, Prod.mk.injEq]
        refine ⟨?_, by omega⟩
        rw [Coupled.shape, readW_append, readW_append]
        simp [List.map_map, Function.comp_def, Nat.add_assoc]
      · rw [if_neg h3, if_neg (by omega)]
    · rw [if_neg h2, if_neg (by omega)]
  · rw [if_neg h1, if_neg (by omega)]

/-! ## C12 -/

/-- number of `CPLDPIN` bodies -/
def Coupled.pinnedBodies (c : Coupled) : ℕ := c.bodies.count .pinned

/-- The number returned by `MoorDyn_NCoupledDOF` is the number of entries used plus 3
for each pinned body. -/
theorem C12_count (c : Coupled) : nCoupledDOF c = c.total + 3 * c.pinnedBodies := by
  have hr : ∀ (l : List Kind) (n : ℕ),
      l.foldl (fun n k => n + rodDOF k) n
        = n + (l.map Kind.width).sum := by
    intro l
    induction l with
    | nil => simp
    | cons k l ih =>
      intro n
      rw [List.foldl_cons, ih]
      cases k <;> simp [Kind.width, rodDOF, Nat.add_assoc]
  have hb : ∀ l : List Kind, (l.map Kind.width).sum + 3 * l.count .pinned = 6 * l.length := by
    intro l
    induction l with
    | nil => simp
    | cons k l ih =>
      cases k <;> simp [Kind.width] <;> omega
  unfold nCoupledDOF
  rw [hr, total_eq, Coupled.pinnedBodies]
  have := hb c.bodies
  omega

/-- C12: the entries of `x` (the same for `xd`) that `MoorDyn_Init` and
`MoorDyn_Step` read are exactly the first `total`: the loops stay inside the array
iff it has that many, and they stop there. -/
theorem C12_entries_read (c : Coupled) (x : List K) :
    (c.total ≤ x.length → ∃ v, readAll c x = some (v, c.total)) ∧
    (x.length < c.total → readAll c x = none) := by
  constructor
  · intro h; rw [readAll_eq, if_pos h]; exact ⟨_, rfl⟩
  · intro h; rw [readAll_eq, if_neg (by omega)]

/-- C12 without pinned bodies: an array of `MoorDyn_NCoupledDOF` entries is exactly
what is read.  Missing with respect to C12: pinned bodies, see `C12_pinned_false`. -/
theorem C12_reads_match_partial (c : Coupled) (hp : c.pinnedBodies = 0) (x : List K)
    (hx : x.length = nCoupledDOF c) : ∃ v, readAll c x = some (v, x.length) := by
  have := C12_count c
  rw [hp] at this
  obtain ⟨v, hv⟩ := (C12_entries_read c x).1 (by omega)
  exact ⟨v, by rw [hv, hx, this]; rfl⟩

/-- C12 is false as stated: one pinned body has `MoorDyn_NCoupledDOF = 6` but 3 entries
are read. -/
theorem C12_pinned_false : nCoupledDOF ⟨[.pinned], [], 0⟩ = 6 ∧
    (⟨[.pinned], [], 0⟩ : Coupled).total = 3 ∧
    readAll ⟨[.pinned], [], 0⟩ [1, 2, 3, 4, 5, 6] =
      some ([[some 1, some 2, some 3, none, none, none]], 3) := by
  decide

/-! ## C13 -/

theorem readW_get (x : List K) (l : List (ℕ × ℕ)) (ix k w n : ℕ) (h : l[k]? = some (w, n)) :
    (readW x l ix)[k]? = some (block x (ix + ((l.map (·.1)).take k).sum) w n) := by
  induction l generalizing ix k with
  | nil => simp at h
  | cons a l ih =>
    cases k with
    | zero => simp at h; subst h; simp [readW]
    | succ k =>
      simp only [List.getElem?_cons_succ] at h
      simp only [readW, List.getElem?_cons_succ, List.map_cons, List.take_succ_cons, List.sum_cons]
      rw [ih _ _ h, Nat.add_assoc]

theorem shape_widths (c : Coupled) : c.shape.map (·.1) = c.widths := by
  simp [Coupled.shape, Coupled.widths, Function.comp_def]

/-- C13, input: object `k` (bodies, then rods, then points) gets as its first `w`
components the entries `offset k ... offset k + w - 1` of `x`. -/
theorem C13_input_block (c : Coupled) (x : List K) (hx : c.total ≤ x.length) (k w : ℕ)
    (hk : c.widths[k]? = some w) (j : ℕ) (hj : j < w) :
    ∃ vs v, readAll c x = some (vs, c.total) ∧ vs[k]? = some v ∧
      v[j]? = some x[c.offset k + j]? := by
  rw [readAll_eq, if_pos hx]
  have hs : ∃ n, c.shape[k]? = some (w, n) := by
    rw [← shape_widths, List.getElem?_map, Option.map_eq_some_iff] at hk
    obtain ⟨⟨a, b⟩, h1, h2⟩ := hk
    exact ⟨b, by rw [h1, ← h2]⟩
  obtain ⟨n, hn⟩ := hs
  refine ⟨_, block x (c.offset k) w n, rfl, ?_, ?_⟩
  · rw [readW_get x _ 0 k w n hn, shape_widths]
    simp [Coupled.offset]
  · have hle : c.offset k + w ≤ x.length := by
      have h1 := offset_succ c k w hk
      have h2 : c.offset (k + 1) ≤ c.total := by
        unfold Coupled.offset Coupled.total
        conv_rhs => rw [← List.take_append_drop (k + 1) c.widths]
        rw [List.sum_append]; omega
      omega
    unfold block
    rw [List.getElem?_append_left (by simp; omega), List.getElem?_map, List.getElem?_take,
      if_pos hj, List.getElem?_drop, List.getElem?_eq_getElem (by omega)]
    rfl

/-- what is written: the values laid out at `ix`, nothing else changes -/
def put (f : List K) (ix : ℕ) (v : List K) : List K := f.take ix ++ v ++ f.drop (ix + v.length)

theorem put_length (f : List K) (ix : ℕ) (v : List K) (h : ix + v.length ≤ f.length) :
    (put f ix v).length = f.length := by
  simp [put]; omega

theorem put_put (f : List K) (ix : ℕ) (v w : List K) (h : ix + v.length + w.length ≤ f.length) :
    put (put f ix v) (ix + v.length) w = put f ix (v ++ w) := by
  unfold put
  have h1 : (f.take ix).length = ix := by simp; omega
  have h2 : (f.take ix ++ v).length = ix + v.length := by simp; omega
  rw [List.take_append_of_le_length (by omega), List.take_of_length_le (by omega)]
  rw [List.drop_append, List.drop_eq_nil_of_le (by omega), List.drop_drop]
  simp only [List.nil_append, List.append_assoc, List.length_append, h1]
  congr 4
  omega

theorem writeVec_eq (v f : List K) (ix : ℕ) (h : ix ≤ f.length) :
    writeVec v f ix = if ix + v.length ≤ f.length then some (put f ix v) else none := by
  induction v generalizing f ix with
  | nil => simp [writeVec, put, h]
  | cons a v ih =>
    unfold writeVec write1
    by_cases h1 : ix < f.length
    · rw [if_pos h1]
      simp only
      rw [ih _ _ (by simp; omega)]
      simp only [List.length_set, List.length_cons]
      by_cases h2 : ix + 1 + v.length ≤ f.length
      · rw [if_pos h2, if_pos (by omega)]
        congr 1
        have hs : f.set ix a = put f ix [a] := by
          rw [List.set_eq_take_append_cons_drop, if_pos h1]
          simp [put]
        rw [hs]
        exact put_put f ix [a] v (by simp; omega)
      · rw [if_neg h2, if_neg (by omega)]
    · rw [if_neg h1, if_neg (by simp; omega)]

/-- the part of a force that is written -/
def outPart (p : Kind × List K) : List K := p.2.take p.1.width

theorem writeKinds_eq (l : List (Kind × List K)) (hl : ∀ p ∈ l, p.2.length = 6) (f : List K) (ix : ℕ)
    (h : ix ≤ f.length) :
    writeKinds l f ix = if ix + (l.map (fun p => p.1.width)).sum ≤ f.length then
      some (put f ix (l.map outPart).flatten, ix + (l.map (fun p => p.1.width)).sum) else none := by
  induction l generalizing f ix with
  | nil => simp [writeKinds, put, h]
  | cons p l ih =>
    obtain ⟨k, v⟩ := p
    have hv : v.length = 6 := hl (k, v) (by simp)
    have ih' := ih (fun p hp => hl p (by simp [hp]))
    have hw : (outPart (k, v)).length = k.width := by
      unfold outPart; cases k <;> simp [Kind.width, hv]
    have hstep : writeKinds ((k, v) :: l) f ix =
        match writeVec (outPart (k, v)) f ix with
        | none => none
        | some f => writeKinds l f (ix + k.width) := by
      cases k
      · simp only [writeKinds, outPart, Kind.width]
        rw [List.take_of_length_le (by omega)]
        rfl
      · simp only [writeKinds, outPart, Kind.width]
        rfl
    rw [hstep, writeVec_eq _ _ _ h, hw]
    simp only [List.map_cons, List.sum_cons, List.flatten_cons]
    by_cases h1 : ix + k.width ≤ f.length
    · rw [if_pos h1]
      simp only
      have hlen := put_length f ix (outPart (k, v)) (by omega)
      rw [ih' _ _ (by omega), hlen]
      have hsumlen : ((l.map outPart).flatten).length = (l.map (fun p => p.1.width)).sum := by
        rw [List.length_flatten, List.map_map]
        congr 1
        apply List.map_congr_left
        intro q hq
        have := hl q (by simp [hq])
        obtain ⟨qk, qv⟩ := q
        simp only [Function.comp, outPart, List.length_take]
        cases qk <;> simp [Kind.width] <;> simp at this <;> omega
      by_cases h2 : ix + k.width + (l.map (fun p => p.1.width)).sum ≤ f.length
      · rw [if_pos h2, if_pos (by omega)]
        have := put_put f ix (outPart (k, v)) (l.map outPart).flatten (by omega)
        rw [hw] at this
        rw [this, Nat.add_assoc]
      · rw [if_neg h2, if_neg (by omega)]
    · rw [if_neg h1, if_neg (by omega)]

theorem writePoints_eq (l : List (List K)) (hl : ∀ p ∈ l, p.length = 3) (f : List K) (ix : ℕ)
    (h : ix ≤ f.length) :
    writePoints l f ix = if ix + 3 * l.length ≤ f.length then
      some (put f ix l.flatten, ix + 3 * l.length) else none := by
  induction l generalizing f ix with
  | nil => simp [writePoints, put, h]
  | cons v l ih =>
    have hv : v.length = 3 := hl v (by simp)
    have ih' := ih (fun p hp => hl p (by simp [hp]))
    simp only [writePoints, writeVec_eq _ _ _ h, hv, List.length_cons, List.flatten_cons]
    by_cases h1 : ix + 3 ≤ f.length
    · rw [if_pos h1]
      simp only
      have hlen := put_length f ix v (by omega)
      rw [ih' _ _ (by omega), hlen]
      have hsumlen : l.flatten.length = 3 * l.length := by
        rw [List.length_flatten]
        rw [show l.map List.length = List.replicate l.length 3 from ?_]
        · simp [Nat.mul_comm]
        · apply List.ext_getElem (by simp)
          intro i h1 h2
          simp at h1 ⊢
          exact hl _ (by simp)
      by_cases h2 : ix + 3 + 3 * l.length ≤ f.length
      · rw [if_pos h2, if_pos (by omega)]
        have := put_put f ix v l.flatten (by omega)
        rw [hv] at this
        rw [this]
        congr 2
        omega
      · rw [if_neg h2, if_neg (by omega)]
    · rw [if_neg h1, if_neg (by omega)]

/-- the forces of all the objects, in order, as written -/
def allForces (bodies rods : List (Kind × List K)) (points : List (List K)) : List (List K) :=
  bodies.map outPart ++ rods.map outPart ++ points

/-- the coupled objects of a list of forces -/
def coupledOf (bodies rods : List (Kind × List K)) (points : List (List K)) : Coupled :=
  ⟨bodies.map (·.1), rods.map (·.1), points.length⟩

theorem getForces_eq (bodies rods : List (Kind × List K)) (points : List (List K))
    (hb : ∀ p ∈ bodies, p.2.length = 6) (hr : ∀ p ∈ rods, p.2.length = 6)
    (hp : ∀ p ∈ points, p.length = 3) (f : List K) :
    getForces bodies rods points f = if (coupledOf bodies rods points).total ≤ f.length then
      some (put f 0 (allForces bodies rods points).flatten, (coupledOf bodies rods points).total)
      else none := by
  have lk : ∀ l : List (Kind × List K), (∀ p ∈ l, p.2.length = 6) →
      ((l.map outPart).flatten).length = (l.map (fun p => p.1.width)).sum := by
    intro l hl
    rw [List.length_flatten, List.map_map]
    congr 1
    apply List.map_congr_left
    intro q hq
    have := hl q hq
    obtain ⟨qk, qv⟩ := q
    simp only [Function.comp, outPart, List.length_take]
    cases qk <;> simp [Kind.width] <;> simp at this <;> omega
  have lp : points.flatten.length = 3 * points.length := by
    rw [List.length_flatten]
    rw [show points.map List.length = List.replicate points.length 3 from ?_]
    · simp [Nat.mul_comm]
    · apply List.ext_getElem (by simp)
      intro i h1 h2
      simp at h1 ⊢
      exact hp _ (by simp)
  unfold getForces
  have ht : (coupledOf bodies rods points).total = (bodies.map (fun p => p.1.width)).sum +
      (rods.map (fun p => p.1.width)).sum + 3 * points.length := by
    rw [total_eq]; simp [coupledOf, Function.comp_def]
  rw [ht, writeKinds_eq _ hb _ _ (Nat.zero_le _)]
  by_cases h1 : 0 + (bodies.map (fun p => p.1.width)).sum ≤ f.length
  · rw [if_pos h1]
    simp only
    have hl1 := put_length f 0 (bodies.map outPart).flatten (by rw [lk _ hb]; omega)
    rw [writeKinds_eq _ hr _ _ (by omega), hl1]
    by_cases h2 : 0 + (bodies.map (fun p => p.1.width)).sum + (rods.map (fun p => p.1.width)).sum
        ≤ f.length
    · rw [if_pos h2]
      simp only
      have e1 := put_put f 0 (bodies.map outPart).flatten (rods.map outPart).flatten
        (by rw [lk _ hb, lk _ hr]; omega)
      rw [lk _ hb] at e1
      rw [e1]
      have hl2 := put_length f 0 ((bodies.map outPart).flatten ++ (rods.map outPart).flatten)
        (by rw [List.length_append, lk _ hb, lk _ hr]; omega)
      rw [writePoints_eq _ hp _ _ (by omega), hl2]
      by_cases h3 : 0 + (bodies.map (fun p => p.1.width)).sum + (rods.map (fun p => p.1.width)).sum
          + 3 * points.length ≤ f.length
      · rw [if_pos h3, if_pos (by omega)]
        have e2 := put_put f 0 ((bodies.map outPart).flatten ++ (rods.map outPart).flatten)
          points.flatten (by rw [List.length_append, lk _ hb, lk _ hr, lp]; omega)
        rw [List.length_append, lk _ hb, lk _ hr, ← Nat.add_assoc] at e2
        rw [e2]
        simp [allForces]
      · rw [if_neg h3, if_neg (by omega)]
    · rw [if_neg h2, if_neg (by omega)]
  · rw [if_neg h1, if_neg (by omega)]

/-- C12, output: `MoorDyn_GetForces`/`Step` writes exactly the first `total` entries of
`f`, needs no more, and leaves the rest alone. -/
theorem C12_entries_written (bodies rods : List (Kind × List K)) (points : List (List K))
    (hb : ∀ p ∈ bodies, p.2.length = 6) (hr : ∀ p ∈ rods, p.2.length = 6)
    (hp : ∀ p ∈ points, p.length = 3) (f : List K) :
    let c := coupledOf bodies rods points
    (f.length < c.total → getForces bodies rods points f = none) ∧
    (c.total ≤ f.length → ∃ f', getForces bodies rods points f = some (f', c.total) ∧
      f'.length = f.length ∧ f'.drop c.total = f.drop c.total ∧
      f'.take c.total = (allForces bodies rods points).flatten) := by
  intro c
  have hlen : (allForces bodies rods points).flatten.length = c.total := by
    have := getForces_eq bodies rods points hb hr hp
      ((allForces bodies rods points).flatten)
    unfold allForces c
    rw [total_eq]
    have lk : ∀ l : List (Kind × List K), (∀ p ∈ l, p.2.length = 6) →
        ((l.map outPart).map List.length) = (l.map (fun p => p.1.width)) := by
      intro l hl
      rw [List.map_map]
      apply List.map_congr_left
      intro q hq
      have := hl q hq
      obtain ⟨qk, qv⟩ := q
      simp only [Function.comp, outPart, List.length_take]
      cases qk <;> simp [Kind.width] <;> simp at this <;> omega
    have lp : points.map List.length = List.replicate points.length 3 := by
      apply List.ext_getElem (by simp)
      intro i h1 h2
      simp at h1 ⊢
      exact hp _ (by simp)
    rw [List.length_flatten, List.map_append, List.map_append, lk _ hb, lk _ hr, lp]
    simp [coupledOf, Function.comp_def, Nat.mul_comm, Nat.add_assoc]
  change (f.length < (coupledOf bodies rods points).total → _) ∧ _
  rw [getForces_eq bodies rods points hb hr hp f]
  constructor
  · intro h; rw [if_neg (not_le.mpr h)]
  · intro h
    rw [if_pos h]
    refine ⟨_, rfl, ?_, ?_, ?_⟩
    · apply put_length; omega
    · simp only [put, List.take_zero, List.nil_append, Nat.zero_add]
      rw [hlen, List.drop_append, List.drop_eq_nil_of_le (by omega)]
      simp [hlen]
    · simp only [put, List.take_zero, List.nil_append, Nat.zero_add]
      rw [← hlen, List.take_append_of_le_length (le_refl _), List.take_length]

/-- C13, output: component `j` of the force of object `k` is written at entry
`offset k + j`, the same entry from which the object reads its motion
(`C13_input_block`). -/
theorem C13_output_block (bodies rods : List (Kind × List K)) (points : List (List K))
    (hb : ∀ p ∈ bodies, p.2.length = 6) (hr : ∀ p ∈ rods, p.2.length = 6)
    (hp : ∀ p ∈ points, p.length = 3) (f : List K)
    (hf : (coupledOf bodies rods points).total ≤ f.length) (k : ℕ) (F : List K)
    (hF : (allForces bodies rods points)[k]? = some F) (j : ℕ) (hj : j < F.length) :
    ∃ f', getForces bodies rods points f = some (f', (coupledOf bodies rods points).total) ∧
      (coupledOf bodies rods points).widths[k]? = some F.length ∧
      f'[(coupledOf bodies rods points).offset k + j]? = F[j]? := by
  have lk : ∀ l : List (Kind × List K), (∀ p ∈ l, p.2.length = 6) →
      ((l.map outPart).map List.length) = (l.map (fun p => p.1.width)) := by
    intro l hl
    rw [List.map_map]
    apply List.map_congr_left
    intro q hq
    have := hl q hq
    obtain ⟨qk, qv⟩ := q
    simp only [Function.comp, outPart, List.length_take]
    cases qk <;> simp [Kind.width] <;> simp at this <;> omega
  have lp : points.map List.length = List.replicate points.length 3 := by
    apply List.ext_getElem (by simp)
    intro i h1 h2
    simp at h1 ⊢
    exact hp _ (by simp)
  have hw : (allForces bodies rods points).map List.length = (coupledOf bodies rods points).widths := by
    unfold allForces Coupled.widths coupledOf
    rw [List.map_append, List.map_append, lk _ hb, lk _ hr, lp]
    simp [Function.comp_def]
  obtain ⟨f', h1, h2, h3, h4⟩ := (C12_entries_written bodies rods points hb hr hp f).2 hf
  refine ⟨f', h1, ?_, ?_⟩
  · rw [← hw, List.getElem?_map, hF]; rfl
  · have hget : ∀ (L : List (List K)) (k : ℕ), L[k]? = some F →
        L.flatten[((L.map List.length).take k).sum + j]? = F[j]? := by
      intro L
      induction L with
      | nil => intro k h; simp at h
      | cons a L ih =>
        intro k h
        cases k with
        | zero =>
          simp at h
          subst h
          simp [List.getElem?_append_left hj]
        | succ k =>
          simp only [List.getElem?_cons_succ] at h
          simp only [List.map_cons, List.take_succ_cons, List.sum_cons, List.flatten_cons]
          rw [List.getElem?_append_right (by omega)]
          have := ih k h
          rw [show a.length + ((L.map List.length).take k).sum + j - a.length
            = ((L.map List.length).take k).sum + j by omega]
          exact this
    have hg := hget _ k hF
    rw [hw] at hg
    rw [← h4] at hg
    change (f'.take _)[(coupledOf bodies rods points).offset k + j]? = _ at hg
    rw [List.getElem?_take] at hg
    split at hg
    · exact hg
    · rw [List.getElem?_eq_getElem hj] at hg; cases hg

/-- A pinned body or rod receives 3 numbers; the other three of its `vec6` are not
initialised (undefined values, source/MoorDyn2.cpp:440-447). -/
theorem C13_pinned_uninitialised (x : List K) (ix : ℕ) (h : ix + 3 ≤ x.length) :
    ∃ a b c, readOne .pinned x ix = some ([some a, some b, some c, none, none, none], ix + 3) ∧
      x[ix]? = some a ∧ x[ix + 1]? = some b ∧ x[ix + 2]? = some c := by
  refine ⟨x[ix], x[ix + 1], x[ix + 2], ?_, by simp, by simp, by simp⟩
  simp only [readOne, array2vec]
  rw [List.getElem?_eq_getElem (show ix < x.length by omega),
      List.getElem?_eq_getElem (show ix + 1 < x.length by omega),
      List.getElem?_eq_getElem (show ix + 2 < x.length by omega)]
  rfl

/-- non-vacuity: a body, a pinned rod and two points use 15 entries -/
example : (⟨[.coupled], [.pinned], 2⟩ : Coupled).total = 15 ∧
    nCoupledDOF ⟨[.coupled], [.pinned], 2⟩ = 15 ∧
    (⟨[.coupled], [.pinned], 2⟩ : Coupled).offset 2 = 9 ∧
    (getForces [(.coupled, [1, 2, 3, 4, 5, 6])] [(.pinned, [7, 8, 9, 0, 0, 0])] [[10, 11, 12], [13, 14, 15]]
      (List.replicate 16 0)).map (·.1) = some [1, 2, 3, 4, 5, 6, 7, 8, 9, 10, 11, 12, 13, 14, 15, 0] := by
  decide

end MD.Layout
