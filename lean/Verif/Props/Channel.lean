import Mathlib.Tactic.NormNum
import Mathlib.Tactic.FinCases
import Mathlib.Data.List.TakeWhile
import Mathlib.Data.Fintype.Basic
import Mathlib.Data.Rat.Defs
import Mathlib.Algebra.Field.Rat
import Verif.Spec.Channel
import Verif.Props.Text

/-!
# Output channels (C72)
-/

set_option linter.unusedSimpArgs false
set_option linter.unusedVariables false
set_option linter.unusedSectionVars false

namespace MD.Channel

open MD.Text (Str upper isAlpha isDigit natOf decompose rtrim)

/-! ## Letters -/

theorem isAlpha_of_toUpper (c : Char) (h : isAlpha (MD.Text.toUpper c) = true) :
    isAlpha c = true := by
  unfold MD.Text.toUpper at h
  by_cases hl : MD.Text.isLower c = true
  · simp [isAlpha, hl]
  · rwa [if_neg hl] at h

theorem alpha_of_upper {w u : Str} (h : upper w = u) (hu : u.all isAlpha = true) :
    ∀ c ∈ w, isAlpha c = true := by
  intro c hc
  apply isAlpha_of_toUpper
  rw [List.all_eq_true] at hu
  exact hu _ (by rw [← h]; exact List.mem_map.2 ⟨c, hc, rfl⟩)

theorem ne_nil_of_upper {w u : Str} (h : upper w = u) (hu : u ≠ []) : w ≠ [] := by
  rintro rfl; exact hu (by rw [← h]; rfl)

theorem atoi_digits (D : Str) (hD : ∀ c ∈ D, isDigit c = true) (h : natOf D < 2 ^ 31) :
    atoi D = some (natOf D) := by
  have : D.takeWhile isDigit = D := List.takeWhile_eq_self_iff.2 hD
  simp only [atoi, this, if_pos h]

/-! ## The table of suffixes -/

/-- The code of a quantity. -/
def Quant.code : Quant → Q
  | .position a => ![.posX, .posY, .posZ] a
  | .rotation a => ![.rX, .rY, .rZ] a
  | .velocity a => ![.velX, .velY, .velZ] a
  | .rotVelocity a => ![.rVelX, .rVelY, .rVelZ] a
  | .acceleration a => ![.accX, .accY, .accZ] a
  | .rotAcceleration a => ![.rAccX, .rAccY, .rAccZ] a
  | .force a => ![.fX, .fY, .fZ] a
  | .moment a => ![.mX, .mY, .mZ] a
  | .netForce => .ten
  | .endA => .tenA
  | .endB => .tenB
  | .submergence => .sub

theorem suffix_quantity : ∀ x ∈ suffixes, ∃ u us, quantity x.1 = some (x.2.code, u) ∧
    units u = some us ∧ rtrim us = docUnit x.2 := by
  have key : ∀ x ∈ suffixes, (match quantity x.1 with
      | none => false
      | some (q, u) => decide (q = x.2.code) && (match units u with
        | none => false
        | some us => decide (rtrim us = docUnit x.2))) = true := by decide +kernel
  intro x hx
  have := key x hx
  split at this
  · exact absurd this (by simp)
  · next q u hq =>
    rw [Bool.and_eq_true] at this
    obtain ⟨h1, h2⟩ := this
    split at h2
    · exact absurd h2 (by simp)
    · next us hu =>
      exact ⟨u, us, by rw [hq, of_decide_eq_true h1], hu, of_decide_eq_true h2⟩

theorem suffix_shape : ∀ x ∈ suffixes, x.1 ≠ [] ∧ x.1.all isAlpha = true ∧
    x.1.take 2 ≠ ['N', 'A'] ∧ x.1.take 2 ≠ ['N', 'B'] := by decide +kernel

theorem prefix_shape (o : Obj) : ∀ x ∈ prefixes o, x.all isAlpha = true ∧ objType x = some o ∧
    x ≠ "FAIRTEN".toList ∧ x ≠ "ANCHTEN".toList := by
  cases o <;> decide +kernel

/-! ## Values -/

variable {K : Type} [Field K]

theorem nth_eq {α : Type} (l : List α) (id : ℕ) (h : id ≠ 0) : nth l id = l[id - 1]? := by
  simp [nth, h]

theorem comp_of (l : List (Fin 3 → K)) (n : ℕ) (a : Fin 3) (v : K)
    (h : (l[n]?).map (· a) = some v) : comp l n a = .val v := by
  simp only [comp, Int.toNat_natCast]
  rw [if_neg (by omega)]
  match hl : l[n]? with
  | none => rw [hl] at h; simp at h
  | some x => rw [hl] at h; simp only [Option.map_some, Option.some.injEq] at h; simp [h]

theorem checked_of (N : ℕ) (l : List (Fin 3 → K)) (n : ℕ) (f : (Fin 3 → K) → K) (v : K)
    (hn : n ≤ N) (h : (l[n]?).map f = some v) : checked N l n f = .val v := by
  simp only [checked, Int.toNat_natCast]
  rw [if_neg (by omega)]
  match hl : l[n]? with
  | none => rw [hl] at h; simp at h
  | some x => rw [hl] at h; simp only [Option.map_some, Option.some.injEq] at h; simp [h]

theorem line_value (s : Sys K) (l : LineObj K) (w : Where) (q : Quant) (v : K)
    (h : docLine s l w q = some v) : lineOutput s l q.code (w.index l.N) = .val v := by
  unfold docLine at h
  dsimp only at h
  by_cases hn : w.index l.N ≤ l.N
  · rw [if_pos hn] at h
    cases q with
    | position a => fin_cases a <;> exact comp_of _ _ _ _ h
    | velocity a => fin_cases a <;> exact comp_of _ _ _ _ h
    | force a => fin_cases a <;> exact checked_of _ _ _ _ _ hn h
    | netForce =>
      dsimp only at h
      simp only [Quant.code, lineOutput]
      by_cases he : w.index l.N = 0 ∨ w.index l.N = l.N
      · rw [if_pos he] at h
        rw [if_pos (by omega)]
        exact checked_of _ _ _ _ _ hn h
      · rw [if_neg he] at h
        rw [if_neg (by omega)]
        exact checked_of _ _ _ _ _ hn h
    | endA => exact checked_of _ _ 0 _ _ (Nat.zero_le _) h
    | endB => exact checked_of _ _ l.N _ _ le_rfl h
    | _ => exact absurd h (by simp)
  · rw [if_neg hn] at h; exact absurd h (by simp)

/-- The node that the model uses for a rod. -/
def Where.rodIndex (N : ℕ) : Where → ℤ
  | .whole => -1
  | w => w.index N

theorem rod_value (s : Sys K) (d : RodObj K) (w : Where) (q : Quant) (v : K)
    (hd : documented .rod w q = true)
    (h : docRod s d w q = some v) : rodOutput s d q.code (w.rodIndex d.N) = .val v := by
  by_cases hw : w = .whole
  · subst hw
    simp only [Where.rodIndex, rodOutput, if_true]
    cases q with
    | position a => fin_cases a <;> simpa [docRod, Quant.code, rodWhole] using h
    | rotation a =>
      fin_cases a
      · simpa [docRod, Quant.code, rodWhole] using h
      · simpa [docRod, Quant.code, rodWhole] using h
      · simp [documented] at hd
    | velocity a => fin_cases a <;> simpa [docRod, Quant.code, rodWhole] using h
    | rotVelocity a =>
      fin_cases a
      · simpa [docRod, Quant.code, rodWhole] using h
      · simpa [docRod, Quant.code, rodWhole] using h
      · simp [documented] at hd
    | acceleration a => fin_cases a <;> simpa [docRod, Quant.code, rodWhole] using h
    | rotAcceleration a =>
      fin_cases a
      · simpa [docRod, Quant.code, rodWhole] using h
      · simpa [docRod, Quant.code, rodWhole] using h
      · simp [documented] at hd
    | force a => fin_cases a <;> simpa [docRod, Quant.code, rodWhole] using h
    | moment a => fin_cases a <;> simpa [docRod, Quant.code, rodWhole] using h
    | netForce => simp [documented] at hd
    | endA => simpa [docRod, Quant.code, rodWhole] using h
    | endB => simpa [docRod, Quant.code, rodWhole] using h
    | submergence => simpa [docRod, Quant.code, rodWhole] using h
  · have hi : w.rodIndex d.N = (w.index d.N : ℕ) := by cases w <;> first | rfl | exact absurd rfl hw
    rw [hi]
    simp only [rodOutput]
    rw [if_neg (by omega)]
    cases q with
    | position a =>
      have h' : (d.r[w.index d.N]?).map (· a) = some v := by
        cases w <;> first | exact h | exact absurd rfl hw
      fin_cases a <;> exact comp_of _ _ _ _ h'
    | velocity a =>
      have h' : (d.rd[w.index d.N]?).map (· a) = some v := by
        cases w <;> first | exact h | exact absurd rfl hw
      fin_cases a <;> exact comp_of _ _ _ _ h'
    | force a =>
      have h' : (d.force[w.index d.N]?).map (· a) = some v := by
        cases w <;> first | exact h | exact absurd rfl hw
      fin_cases a <;> exact comp_of _ _ _ _ h'
    | _ => cases w <;> first | exact absurd rfl hw | simp [documented] at hd

theorem point_value (s : Sys K) (p : PointObj K) (q : Quant) (v : K)
    (h : docPoint s p q = some v) : pointOutput s p q.code = .val v := by
  cases q with
  | position a => fin_cases a <;> simpa [docPoint, Quant.code, pointOutput] using h
  | velocity a => fin_cases a <;> simpa [docPoint, Quant.code, pointOutput] using h
  | acceleration a => fin_cases a <;> simpa [docPoint, Quant.code, pointOutput] using h
  | force a => fin_cases a <;> simpa [docPoint, Quant.code, pointOutput] using h
  | netForce => simpa [docPoint, Quant.code, pointOutput] using h
  | _ => exact absurd h (by simp [docPoint])

theorem body_value (s : Sys K) (b : BodyObj K) (q : Quant) (v : K)
    (h : docBody s b q = some v) : bodyOutput s b q.code = .val v := by
  cases q with
  | position a => fin_cases a <;> simpa [docBody, Quant.code, bodyOutput] using h
  | rotation a => fin_cases a <;> simpa [docBody, Quant.code, bodyOutput] using h
  | velocity a => fin_cases a <;> simpa [docBody, Quant.code, bodyOutput] using h
  | rotVelocity a => fin_cases a <;> simpa [docBody, Quant.code, bodyOutput] using h
  | acceleration a => fin_cases a <;> simpa [docBody, Quant.code, bodyOutput] using h
  | rotAcceleration a => fin_cases a <;> simpa [docBody, Quant.code, bodyOutput] using h
  | force a => fin_cases a <;> simpa [docBody, Quant.code, bodyOutput] using h
  | moment a => fin_cases a <;> simpa [docBody, Quant.code, bodyOutput] using h
  | netForce =>
    have e : (fun a => b.f6 (Fin.castAdd 3 a)) = ![b.f6 0, b.f6 1, b.f6 2] := by
      funext a; fin_cases a <;> rfl
    simp only [docBody, Option.some.injEq, e] at h
    simp [Quant.code, bodyOutput, h]
  | _ => exact absurd h (by simp [docBody])

/-! ## The words -/

/-- Node that the parser finds. -/
def found (o : Obj) (lineNs rodNs : List ℕ) (id : ℕ) (w : Where) : Option ℤ :=
  match o with
  | .line => match w with
    | .endB => (nth lineNs id).map (fun n : ℕ => (n : ℤ))
    | w => some (w.index 0)
  | .rod => match w with
    | .endB => (nth rodNs id).map (fun n : ℕ => (n : ℤ))
    | w => some (w.rodIndex 0)
  | _ => some (-1)

theorem take_upper {w : Str} {a b : Char} (h : upper w = [a, b]) (S : Str) :
    (upper (w ++ S)).take 2 = [a, b] ∧ (upper (w ++ S)).drop 2 = upper S := by
  have : upper (w ++ S) = [a, b] ++ upper S := by rw [← h]; simp [upper]
  rw [this]; exact ⟨rfl, rfl⟩

theorem NA_toList : "NA".toList = ['N', 'A'] := by decide +kernel
theorem NB_toList : "NB".toList = ['N', 'B'] := by decide +kernel

/-- Parsing a well formed word. -/
theorem parse_word (lineNs rodNs : List ℕ) (o : Obj) (A D W S : Str) (wh : Where)
    (x : Str × Quant) (hA : upper A ∈ prefixes o) (hD : ∀ c ∈ D, isDigit c = true) (hD0 : D ≠ [])
    (hid : natOf D < 2 ^ 31) (hW : NodeWord wh W) (hx : x ∈ suffixes) (hS : upper S = x.1)
    (hob : o = .point ∨ o = .body → wh = .whole) :
    parse lineNs rodNs (A ++ D ++ W ++ S) =
      match found o lineNs rodNs (natOf D) wh with
      | none => .ub
      | some n => finish (A ++ D ++ W ++ S) o (natOf D) n x.1 [] := by
  obtain ⟨p1, p2, p3, p4⟩ := prefix_shape o _ hA
  obtain ⟨s1, s2, s3, s4⟩ := suffix_shape x hx
  have hAa := alpha_of_upper rfl p1
  have hSa := alpha_of_upper hS s2
  have hS0 := ne_nil_of_upper hS s1
  have at0 := atoi_digits D hD hid
  have fin_eq : ∀ (word : Str) (n : ℤ) (l : Str), finish word o (natOf D) n l x.1 =
      finish word o (natOf D) n x.1 [] := by
    intro word n l
    simp only [finish, if_neg s1, if_true]
  unfold parse
  cases hW with
  | whole =>
    have hdec := MD.Text.C52_decompose_word A D S [] [] hAa hD hSa (by simp) (by simp) hD0 (by simp)
      (by simp)
    simp only [List.append_nil] at hdec ⊢
    simp only [hdec, at0, if_neg p3, if_neg p4, p2, hS]
    have e1 : upper ([] : Str) = [] := rfl
    cases o <;> simp [nodeOf, found, lineNode, rodNode, e1, s3, s4, Where.index, Where.rodIndex]
  | node w ds hw hd h0 hn =>
    have hwa := alpha_of_upper hw (by decide)
    have hw0 := ne_nil_of_upper hw (by simp)
    have hdec := MD.Text.C52_decompose_word A D w ds S hAa hD hwa hd hSa hD0 (fun _ => hw0)
      (fun _ => h0)
    have at1 := atoi_digits ds hd hn
    rw [show A ++ D ++ (w ++ ds) ++ S = A ++ D ++ w ++ ds ++ S by simp]
    simp only [hdec, at0, if_neg p3, if_neg p4, p2, hS]
    cases o with
    | line => simp [nodeOf, found, lineNode, s1, at1, Where.index, fin_eq]
    | rod => simp [nodeOf, found, rodNode, s1, at1, h0, Where.index, Where.rodIndex, fin_eq]
    | point => exact absurd (hob (Or.inl rfl)) (by simp)
    | body => exact absurd (hob (Or.inr rfl)) (by simp)
  | endA w hw =>
    have hwa := alpha_of_upper hw (by decide)
    have hwS : ∀ c ∈ W ++ S, isAlpha c = true := fun c hc => by
      rcases List.mem_append.1 hc with h | h
      · exact hwa c h
      · exact hSa c h
    have hdec := MD.Text.C52_decompose_word A D (W ++ S) [] [] hAa hD hwS (by simp) (by simp) hD0
      (by simp) (by simp)
    obtain ⟨t1, t2⟩ := take_upper hw S
    simp only [List.append_nil, ← List.append_assoc] at hdec ⊢
    simp only [hdec, at0, if_neg p3, if_neg p4, p2]
    simp only [List.append_assoc] at t1 t2 ⊢
    have e1 : upper ([] : Str) = [] := rfl
    cases o with
    | line => simp [nodeOf, found, lineNode, e1, t1, t2, hS, NA_toList, Where.index]
    | rod => simp [nodeOf, found, rodNode, e1, t1, t2, hS, NA_toList, Where.index, Where.rodIndex]
    | point => exact absurd (hob (Or.inl rfl)) (by simp)
    | body => exact absurd (hob (Or.inr rfl)) (by simp)
  | endB w hw =>
    have hwa := alpha_of_upper hw (by decide)
    have hwS : ∀ c ∈ W ++ S, isAlpha c = true := fun c hc => by
      rcases List.mem_append.1 hc with h | h
      · exact hwa c h
      · exact hSa c h
    have hdec := MD.Text.C52_decompose_word A D (W ++ S) [] [] hAa hD hwS (by simp) (by simp) hD0
      (by simp) (by simp)
    obtain ⟨t1, t2⟩ := take_upper hw S
    simp only [List.append_nil, ← List.append_assoc] at hdec ⊢
    simp only [hdec, at0, if_neg p3, if_neg p4, p2]
    simp only [List.append_assoc] at t1 t2 ⊢
    have e1 : upper ([] : Str) = [] := rfl
    cases o with
    | line =>
      cases hh : nth lineNs (natOf D) <;>
        simp [nodeOf, found, lineNode, e1, t1, t2, hS, NA_toList, NB_toList, hh]
    | rod =>
      cases hh : nth rodNs (natOf D) <;>
        simp [nodeOf, found, rodNode, e1, t1, t2, hS, NA_toList, NB_toList, hh]
    | point => exact absurd (hob (Or.inl rfl)) (by simp)
    | body => exact absurd (hob (Or.inr rfl)) (by simp)

/-! ## C72 -/

/-- **C72** (documented words). A word made of the name of an object in any case, its number,
possibly a node or end, and a suffix of the table, where the cell of the table is filled and
the object and node exist: there is one channel, with the word as its title, the unit of the
table, and the value of that quantity of that object. -/
theorem C72_documented (s : Sys K) (o : Obj) (A D W S : Str) (wh : Where) (x : Str × Quant)
    (hA : upper A ∈ prefixes o) (hD : ∀ c ∈ D, isDigit c = true) (hD0 : D ≠ [])
    (hid : natOf D < 2 ^ 31) (hW : NodeWord wh W) (hx : x ∈ suffixes) (hS : upper S = x.1) (v : K)
    (hv : docValue s o (natOf D) wh x.2 = some v) :
    ∃ c, parse (s.lines.map (·.N)) (s.rods.map (·.N)) (A ++ D ++ W ++ S) = .chan c ∧
      c.name = A ++ D ++ W ++ S ∧ rtrim c.units = docUnit x.2 ∧ getOutput s c = .val v := by
  unfold docValue at hv
  by_cases hc : documented o wh x.2 = false ∨ natOf D = 0
  · rw [if_pos hc] at hv; exact absurd hv (by simp)
  · rw [if_neg hc] at hv
    push Not at hc
    obtain ⟨hdoc, hid0⟩ := hc
    have hdoc : documented o wh x.2 = true := by simpa using hdoc
    have hob : o = .point ∨ o = .body → wh = .whole := by
      rintro (rfl | rfl) <;> cases wh <;> first | rfl | (cases hq : x.2 <;> simp [hq, documented] at hdoc)
    rw [parse_word _ _ o A D W S wh x hA hD hD0 hid hW hx hS hob]
    obtain ⟨u, us, hq, hu, hus⟩ := suffix_quantity x hx
    have hfin : ∀ n : ℤ, (o = .rod → x.2 ≠ .netForce) →
        finish (A ++ D ++ W ++ S) o (natOf D) n x.1 [] =
          .chan ⟨A ++ D ++ W ++ S, us, x.2.code, o, n, natOf D⟩ := by
      intro n hne
      have : ¬ (o = .rod ∧ x.2.code = .ten) := by
        rintro ⟨h1, h2⟩
        refine hne h1 ?_
        cases h3 : x.2 with
        | netForce => rfl
        | position a => rw [h3] at h2; fin_cases a <;> simp [Quant.code] at h2
        | rotation a => rw [h3] at h2; fin_cases a <;> simp [Quant.code] at h2
        | velocity a => rw [h3] at h2; fin_cases a <;> simp [Quant.code] at h2
        | rotVelocity a => rw [h3] at h2; fin_cases a <;> simp [Quant.code] at h2
        | acceleration a => rw [h3] at h2; fin_cases a <;> simp [Quant.code] at h2
        | rotAcceleration a => rw [h3] at h2; fin_cases a <;> simp [Quant.code] at h2
        | force a => rw [h3] at h2; fin_cases a <;> simp [Quant.code] at h2
        | moment a => rw [h3] at h2; fin_cases a <;> simp [Quant.code] at h2
        | _ => rw [h3] at h2; simp [Quant.code] at h2
      simp only [finish, if_true, hq, hu, if_neg this]
    have hne : o = .rod → x.2 ≠ .netForce := by
      rintro rfl h
      rw [h] at hdoc
      cases wh <;> simp [documented] at hdoc
    cases o with
    | line =>
      cases hl : s.lines[natOf D - 1]? with
      | none => rw [hl] at hv; exact absurd hv (by simp)
      | some l =>
        rw [hl] at hv
        have hf : found .line (s.lines.map (·.N)) (s.rods.map (·.N)) (natOf D) wh =
            some ((wh.index l.N : ℕ) : ℤ) := by
          cases wh <;> simp [found, nth_eq _ _ hid0, hl, Where.index]
        refine ⟨⟨A ++ D ++ W ++ S, us, x.2.code, .line, (wh.index l.N : ℕ), natOf D⟩, ?_, rfl, hus, ?_⟩
        · rw [hf]; exact hfin _ hne
        · simp only [getOutput, nth_eq _ _ hid0, hl]
          exact line_value s l wh x.2 v hv
    | rod =>
      cases hl : s.rods[natOf D - 1]? with
      | none => rw [hl] at hv; exact absurd hv (by simp)
      | some d =>
        rw [hl] at hv
        have hf : found .rod (s.lines.map (·.N)) (s.rods.map (·.N)) (natOf D) wh =
            some (wh.rodIndex d.N) := by
          cases wh <;> simp [found, nth_eq _ _ hid0, hl, Where.index, Where.rodIndex]
        refine ⟨⟨A ++ D ++ W ++ S, us, x.2.code, .rod, wh.rodIndex d.N, natOf D⟩, ?_, rfl, hus, ?_⟩
        · rw [hf]; exact hfin _ hne
        · simp only [getOutput, nth_eq _ _ hid0, hl]
          exact rod_value s d wh x.2 v hdoc hv
    | point =>
      cases hl : s.points[natOf D - 1]? with
      | none => rw [hl] at hv; exact absurd hv (by simp)
      | some p =>
        rw [hl] at hv
        refine ⟨⟨A ++ D ++ W ++ S, us, x.2.code, .point, -1, natOf D⟩, ?_, rfl, hus, ?_⟩
        · exact hfin _ hne
        · simp only [getOutput, nth_eq _ _ hid0, hl]
          exact point_value s p x.2 v hv
    | body =>
      cases hl : s.bodies[natOf D - 1]? with
      | none => rw [hl] at hv; exact absurd hv (by simp)
      | some b =>
        rw [hl] at hv
        refine ⟨⟨A ++ D ++ W ++ S, us, x.2.code, .body, -1, natOf D⟩, ?_, rfl, hus, ?_⟩
        · exact hfin _ hne
        · simp only [getOutput, nth_eq _ _ hid0, hl]
          exact body_value s b x.2 v hv

/-- The lists of the nodes have one entry for each node. -/
def Sized (s : Sys K) : Prop :=
  (∀ l ∈ s.lines, l.r.length = l.N + 1 ∧ l.rd.length = l.N + 1 ∧ l.force.length = l.N + 1 ∧
    l.ten.length = l.N + 1) ∧
  (∀ d ∈ s.rods, d.r.length = d.N + 1 ∧ d.rd.length = d.N + 1 ∧ d.force.length = d.N + 1)

/-- Does the object exist, and the node on it? -/
def Exists (s : Sys K) (o : Obj) (id : ℕ) (w : Where) : Prop :=
  1 ≤ id ∧ match o with
    | .line => ∃ l, s.lines[id - 1]? = some l ∧ w.index l.N ≤ l.N
    | .rod => ∃ d, s.rods[id - 1]? = some d ∧ w.index d.N ≤ d.N
    | .point => id ≤ s.points.length
    | .body => id ≤ s.bodies.length

/-- The value of `C72_documented` exists for every filled cell of the table and every
existing object and node. -/
theorem C72_filled (s : Sys K) (hs : Sized s) (o : Obj) (id : ℕ) (w : Where) (q : Quant)
    (hd : documented o w q = true) (he : Exists s o id w) : ∃ v, docValue s o id w q = some v := by
  obtain ⟨h1, he⟩ := he
  rw [← Option.isSome_iff_exists]
  unfold docValue
  rw [if_neg (by rw [hd]; simp; omega)]
  cases o with
  | line =>
    obtain ⟨l, hl, hn⟩ := he
    obtain ⟨a1, a2, a3, a4⟩ := hs.1 l (List.mem_of_getElem? hl)
    simp only [hl, Option.bind_some]
    have b1 : w.index l.N < l.r.length := by omega
    have b2 : w.index l.N < l.rd.length := by omega
    have b3 : w.index l.N < l.force.length := by omega
    have b4 : w.index l.N < l.ten.length := by omega
    have b5 : 0 < l.force.length := by omega
    have b6 : l.N < l.force.length := by omega
    unfold docLine
    dsimp only
    rw [if_pos hn]
    cases q with
    | position a => simp [b1]
    | velocity a => simp [b2]
    | force a => simp [b3]
    | netForce => dsimp only; split_ifs <;> simp [b3, b4]
    | endA => simp [b5]
    | endB => simp [b6]
    | _ => cases w <;> simp [documented] at hd
  | rod =>
    obtain ⟨d, hl, hn⟩ := he
    obtain ⟨a1, a2, a3⟩ := hs.2 d (List.mem_of_getElem? hl)
    simp only [hl, Option.bind_some]
    have b1 : w.index d.N < d.r.length := by omega
    have b2 : w.index d.N < d.rd.length := by omega
    have b3 : w.index d.N < d.force.length := by omega
    cases w <;> cases q <;> simp [docRod, documented, b1, b2, b3] at hd ⊢ <;> try (split_ifs <;> rfl)
  | point =>
    have he : id ≤ s.points.length := he
    have : id - 1 < s.points.length := by omega
    simp only [List.getElem?_eq_getElem this, Option.bind_some]
    cases w <;> cases q <;> simp [docPoint, documented] at hd ⊢
  | body =>
    have he : id ≤ s.bodies.length := he
    have : id - 1 < s.bodies.length := by omega
    simp only [List.getElem?_eq_getElem this, Option.bind_some]
    cases w <;> cases q <;> simp [docBody, documented] at hd ⊢

theorem special_pieces (A D : Str) (u : Str) (hu : u.all isAlpha = true) (hA : upper A = u)
    (hD : ∀ c ∈ D, isDigit c = true) (hD0 : D ≠ []) :
    decompose (A ++ D) = ⟨u, D, [], [], []⟩ := by
  have := MD.Text.C52_decompose_word A D [] [] [] (alpha_of_upper hA hu) hD (by simp) (by simp)
    (by simp) hD0 (by simp) (by simp)
  rw [hA] at this
  simpa [show upper ([] : Str) = [] from rfl] using this

/-- **C72** (FairTen). `FairTen[n]` is the same as `Line[n]TenB`, in any case: the net force at
end B, in newtons. -/
theorem C72_fairten (s : Sys K) (A D : Str) (hA : upper A = ['F', 'A', 'I', 'R', 'T', 'E', 'N'])
    (hD : ∀ c ∈ D, isDigit c = true) (hD0 : D ≠ []) (hid : natOf D < 2 ^ 31) (v : K)
    (hv : docValue s .line (natOf D) .whole .endB = some v) :
    ∃ c, parse (s.lines.map (·.N)) (s.rods.map (·.N)) (A ++ D) = .chan c ∧
      c.name = A ++ D ∧ rtrim c.units = ['(', 'N', ')'] ∧ getOutput s c = .val v := by
  have hdec := special_pieces A D _ (by decide) hA hD hD0
  have e1 : "FAIRTEN".toList = ['F', 'A', 'I', 'R', 'T', 'E', 'N'] := by decide +kernel
  unfold docValue at hv
  by_cases h0 : natOf D = 0
  · rw [if_pos (Or.inr h0)] at hv; exact absurd hv (by simp)
  · rw [if_neg (by simp [documented, h0])] at hv
    cases hl : s.lines[natOf D - 1]? with
    | none => rw [hl] at hv; exact absurd hv (by simp)
    | some l =>
      rw [hl] at hv
      have hv' : (l.force[l.N]?).map s.norm = some v := by
        simpa [docLine, Where.index] using hv
      obtain ⟨us, hu, hus⟩ : ∃ us, units .ten = some us ∧ rtrim us = ['(', 'N', ')'] :=
        ⟨"(N)       ".toList, by decide +kernel, by decide +kernel⟩
      refine ⟨⟨A ++ D, us, .ten, .line, l.N, natOf D⟩, ?_, rfl, hus, ?_⟩
      · simp only [parse, hdec, atoi_digits D hD hid, e1, if_true, nth_eq _ _ h0, List.getElem?_map,
          hl, hu, Option.map_some]
      · simp only [getOutput, nth_eq _ _ h0, hl, lineOutput]
        rw [if_pos (by simp)]
        exact checked_of _ _ _ _ _ le_rfl hv'

/-- **C72** (AnchTen): the net force at end A. -/
theorem C72_anchten (s : Sys K) (A D : Str) (hA : upper A = ['A', 'N', 'C', 'H', 'T', 'E', 'N'])
    (hD : ∀ c ∈ D, isDigit c = true) (hD0 : D ≠ []) (hid : natOf D < 2 ^ 31) (v : K)
    (hv : docValue s .line (natOf D) .whole .endA = some v) :
    ∃ c, parse (s.lines.map (·.N)) (s.rods.map (·.N)) (A ++ D) = .chan c ∧
      c.name = A ++ D ∧ rtrim c.units = ['(', 'N', ')'] ∧ getOutput s c = .val v := by
  have hdec := special_pieces A D _ (by decide) hA hD hD0
  have e1 : ¬ ['A', 'N', 'C', 'H', 'T', 'E', 'N'] = "FAIRTEN".toList := by decide +kernel
  have e2 : "ANCHTEN".toList = ['A', 'N', 'C', 'H', 'T', 'E', 'N'] := by decide +kernel
  unfold docValue at hv
  by_cases h0 : natOf D = 0
  · rw [if_pos (Or.inr h0)] at hv; exact absurd hv (by simp)
  · rw [if_neg (by simp [documented, h0])] at hv
    cases hl : s.lines[natOf D - 1]? with
    | none => rw [hl] at hv; exact absurd hv (by simp)
    | some l =>
      rw [hl] at hv
      have hv' : (l.force[0]?).map s.norm = some v := by
        simpa [docLine, Where.index] using hv
      obtain ⟨us, hu, hus⟩ : ∃ us, units .ten = some us ∧ rtrim us = ['(', 'N', ')'] :=
        ⟨"(N)       ".toList, by decide +kernel, by decide +kernel⟩
      refine ⟨⟨A ++ D, us, .ten, .line, 0, natOf D⟩, ?_, rfl, hus, ?_⟩
      · simp only [parse, hdec, atoi_digits D hD hid, if_neg e1, e2, if_true, hu]
      · simp only [getOutput, nth_eq _ _ h0, hl, lineOutput]
        rw [if_pos (by simp)]
        exact checked_of _ _ 0 _ _ (Nat.zero_le _) hv'

theorem quantity_mem (z : Str) (r : Q × Q) (h : quantity z = some r) :
    z ∈ (['T', 'A'] : Str) :: ['T', 'B'] :: suffixes.map (·.1) := by
  unfold quantity at h
  have e := h
  clear e
  by_contra hz
  have key : ∀ y ∈ (["PX".toList, "PY".toList, "PZ".toList, "RX".toList, "RY".toList, "RZ".toList,
      "VX".toList, "VY".toList, "VZ".toList, "RVX".toList, "RVY".toList, "RVZ".toList,
      "AX".toList, "AY".toList, "AZ".toList, "RAX".toList, "RAY".toList, "RAZ".toList,
      "T".toList, "TEN".toList, "TA".toList, "TENA".toList, "TB".toList, "TENB".toList,
      "FX".toList, "FY".toList, "FZ".toList, "MX".toList, "MY".toList, "MZ".toList,
      "SUB".toList] : List Str), y ∈ (['T', 'A'] : Str) :: ['T', 'B'] :: suffixes.map (·.1) := by
    decide +kernel
  have ne : ∀ y ∈ (["PX".toList, "PY".toList, "PZ".toList, "RX".toList, "RY".toList, "RZ".toList,
      "VX".toList, "VY".toList, "VZ".toList, "RVX".toList, "RVY".toList, "RVZ".toList,
      "AX".toList, "AY".toList, "AZ".toList, "RAX".toList, "RAY".toList, "RAZ".toList,
      "T".toList, "TEN".toList, "TA".toList, "TENA".toList, "TB".toList, "TENB".toList,
      "FX".toList, "FY".toList, "FZ".toList, "MX".toList, "MY".toList, "MZ".toList,
      "SUB".toList] : List Str), z ≠ y := fun y hy e => hz (e ▸ key y hy)
  simp only [List.mem_cons, List.not_mem_nil, or_false, forall_eq_or_imp, forall_eq] at ne
  obtain ⟨n1, n2, n3, n4, n5, n6, n7, n8, n9, n10, n11, n12, n13, n14, n15, n16, n17, n18, n19,
    n20, n21, n22, n23, n24, n25, n26, n27, n28, n29, n30, n31⟩ := ne
  rw [if_neg n1, if_neg n2, if_neg n3, if_neg n4, if_neg n5, if_neg n6, if_neg n7, if_neg n8,
    if_neg n9, if_neg n10, if_neg n11, if_neg n12, if_neg n13, if_neg n14, if_neg n15, if_neg n16,
    if_neg n17, if_neg n18, if_neg (not_or.2 ⟨n19, n20⟩), if_neg (not_or.2 ⟨n21, n22⟩),
    if_neg (not_or.2 ⟨n23, n24⟩), if_neg n25, if_neg n26, if_neg n27, if_neg n28, if_neg n29,
    if_neg n30, if_neg n31] at h
  exact absurd h (by simp)

/-- **C72** (unknown words). A word gives a channel only if its first letters are the name of
an object, FAIRTEN or ANCHTEN, and then its last letters are a suffix (those of the table,
TA or TB). -/
theorem C72_unknown (lineNs rodNs : List ℕ) (w : Str) (c : Chan)
    (h : parse lineNs rodNs w = .chan c) :
    (decompose w).let1 = ['F', 'A', 'I', 'R', 'T', 'E', 'N'] ∨
    (decompose w).let1 = ['A', 'N', 'C', 'H', 'T', 'E', 'N'] ∨
    (((decompose w).let1 ∈ prefixes c.otype) ∧
      ∃ x, x ∈ (['T', 'A'] : Str) :: ['T', 'B'] :: suffixes.map (·.1) ∧
        x <:+ (decompose w).let2 ++ (decompose w).let3) := by
  have e1 : "FAIRTEN".toList = ['F', 'A', 'I', 'R', 'T', 'E', 'N'] := by decide +kernel
  have e2 : "ANCHTEN".toList = ['A', 'N', 'C', 'H', 'T', 'E', 'N'] := by decide +kernel
  unfold parse at h
  dsimp only at h
  split at h
  · exact absurd h (by simp)
  · next id hid =>
    by_cases c1 : (decompose w).let1 = "FAIRTEN".toList
    · exact Or.inl (c1.trans e1)
    rw [if_neg c1] at h
    by_cases c2 : (decompose w).let1 = "ANCHTEN".toList
    · exact Or.inr (Or.inl (c2.trans e2))
    rw [if_neg c2] at h
    refine Or.inr (Or.inr ?_)
    cases ho : objType (decompose w).let1 with
    | none => rw [ho] at h; exact absurd h (by simp)
    | some o =>
      rw [ho] at h
      dsimp only at h
      have hpre : (decompose w).let1 ∈ prefixes o := by
        unfold objType at ho
        have k : ∀ a b : Str, (decompose w).let1 = a ∨ (decompose w).let1 = b →
          (decompose w).let1 ∈ [a, b] := fun a b h => by simpa using h
        have t1 : "L".toList = ['L'] ∧ "LINE".toList = ['L', 'I', 'N', 'E'] ∧
          "P".toList = ['P'] ∧ "POINT".toList = ['P', 'O', 'I', 'N', 'T'] ∧
          "R".toList = ['R'] ∧ "ROD".toList = ['R', 'O', 'D'] ∧
          "B".toList = ['B'] ∧ "BODY".toList = ['B', 'O', 'D', 'Y'] := by decide +kernel
        obtain ⟨q1, q2, q3, q4, q5, q6, q7, q8⟩ := t1
        rw [q1, q2, q3, q4, q5, q6, q7, q8] at ho
        split_ifs at ho with g1 g2 g3 g4 <;> simp only [Option.some.injEq] at ho <;> subst ho
        · exact k _ _ g1
        · exact k _ _ g2
        · exact k _ _ g3
        · exact k _ _ g4
      have hnode : ∀ n l2, nodeOf o lineNs rodNs id (decompose w).let2 (decompose w).num2
          (decompose w).let3 = .node n l2 → l2 <:+ (decompose w).let2 := by
        intro n l2 hn
        have hdrop : (decompose w).let2.drop 2 <:+ (decompose w).let2 := List.drop_suffix _ _
        unfold nodeOf lineNode rodNode at hn
        split at hn
        · split_ifs at hn <;> (try split at hn) <;> simp only [NodeRes.node.injEq, reduceCtorEq] at hn <;>
            first
            | (obtain ⟨-, rfl⟩ := hn; exact hdrop)
            | (obtain ⟨-, rfl⟩ := hn; exact List.suffix_rfl)
        · split_ifs at hn <;> (try split at hn) <;> simp only [NodeRes.node.injEq, reduceCtorEq] at hn <;>
            first
            | (obtain ⟨-, rfl⟩ := hn; exact hdrop)
            | (obtain ⟨-, rfl⟩ := hn; exact List.suffix_rfl)
        · simp only [NodeRes.node.injEq] at hn
          obtain ⟨-, rfl⟩ := hn; exact List.suffix_rfl
      split at h
      · exact absurd h (by simp)
      · exact absurd h (by simp)
      · next n l2 hn =>
        have hl2 := hnode n l2 hn
        unfold finish at h
        split at h
        · exact absurd h (by simp)
        · next q u hq =>
          split at h
          · exact absurd h (by simp)
          · simp only [Parsed.chan.injEq] at h
            have hot : c.otype = o := by rw [← h]
            rw [hot]
            refine ⟨hpre, if (decompose w).let3 = [] then l2 else (decompose w).let3, ?_, ?_⟩
            · generalize (if (decompose w).let3 = [] then l2 else (decompose w).let3) = z at hq ⊢
              exact quantity_mem z _ hq
            · split_ifs with hz
              · rw [hz, List.append_nil]; exact hl2
              · exact List.suffix_append _ _

/-! ## What is not checked -/

/-- The number of objects of a kind. -/
def count (s : Sys K) : Obj → ℕ
  | .line => s.lines.length
  | .point => s.points.length
  | .rod => s.rods.length
  | .body => s.bodies.length

theorem nth_none {α : Type} (l : List α) (id : ℕ) (h : id = 0 ∨ id > l.length) :
    nth l id = none := by
  unfold nth
  by_cases h0 : id = 0
  · rw [if_pos h0]
  · rw [if_neg h0, List.getElem?_eq_none (by omega)]

/-- A well formed word for an object that does not exist is not refused: reading it or its
value is undefined behaviour, whatever the system. -/
theorem C72_object_false (s : Sys K) (o : Obj) (A D W S : Str) (wh : Where) (x : Str × Quant)
    (hA : upper A ∈ prefixes o) (hD : ∀ c ∈ D, isDigit c = true) (hD0 : D ≠ [])
    (hid : natOf D < 2 ^ 31) (hW : NodeWord wh W) (hx : x ∈ suffixes) (hS : upper S = x.1)
    (hob : o = .point ∨ o = .body → wh = .whole)
    (hno : natOf D = 0 ∨ natOf D > count s o) :
    parse (s.lines.map (·.N)) (s.rods.map (·.N)) (A ++ D ++ W ++ S) = .ub ∨
    ∃ c, parse (s.lines.map (·.N)) (s.rods.map (·.N)) (A ++ D ++ W ++ S) = .chan c ∧
      getOutput s c = .ub := by
  rw [parse_word _ _ o A D W S wh x hA hD hD0 hid hW hx hS hob]
  cases found o (s.lines.map (·.N)) (s.rods.map (·.N)) (natOf D) wh with
  | none => exact Or.inl rfl
  | some n =>
    right
    obtain ⟨u, us, hq, hu, hus⟩ := suffix_quantity x hx
    simp only [finish, if_true, hq, hu]
    refine ⟨_, rfl, ?_⟩
    cases o <;> simp only [getOutput, count] at hno ⊢ <;> rw [nth_none _ _ hno]

theorem comp_ub (l : List (Fin 3 → K)) (n : ℕ) (a : Fin 3) (h : l.length ≤ n) :
    comp l n a = .ub := by
  simp [comp, h]

theorem checked_throws (N : ℕ) (l : List (Fin 3 → K)) (n : ℕ) (f : (Fin 3 → K) → K) (h : N < n) :
    checked N l n f = .throws := by
  unfold checked
  rw [if_pos (by omega)]

/-- A node beyond the end of a line: the position is undefined behaviour (other quantities
give an exception when the file is written). -/
theorem C72_node_false (s : Sys K) (hs : Sized s) (l : LineObj K) (D ds : Str)
    (hD : ∀ c ∈ D, isDigit c = true) (hD0 : D ≠ []) (hid : natOf D < 2 ^ 31)
    (hd : ∀ c ∈ ds, isDigit c = true) (h0 : ds ≠ []) (hn : natOf ds < 2 ^ 31)
    (h1 : 1 ≤ natOf D) (hl : s.lines[natOf D - 1]? = some l) (hbig : natOf ds > l.N) :
    (∃ c, parse (s.lines.map (·.N)) (s.rods.map (·.N)) (['L'] ++ D ++ (['N'] ++ ds) ++ ['P', 'X']) =
      .chan c ∧ getOutput s c = .ub) ∧
    ∃ c, parse (s.lines.map (·.N)) (s.rods.map (·.N)) (['L'] ++ D ++ (['N'] ++ ds) ++ ['F', 'X']) =
      .chan c ∧ getOutput s c = .throws := by
  have hW : NodeWord (.node (natOf ds)) (['N'] ++ ds) := .node _ _ (by decide) hd h0 hn
  have hsz := hs.1 l (List.mem_of_getElem? hl)
  constructor
  · rw [parse_word _ _ .line ['L'] D (['N'] ++ ds) ['P', 'X'] _ (['P', 'X'], .position 0)
      (by decide) hD hD0 hid hW (by decide) (by decide) (by simp)]
    obtain ⟨u, us, hq, hu, hus⟩ := suffix_quantity (['P', 'X'], .position 0) (by decide)
    simp only [found, finish, if_true, hq, hu]
    refine ⟨_, rfl, ?_⟩
    simp only [getOutput, nth_eq _ _ (show natOf D ≠ 0 by omega), hl]
    exact comp_ub l.r (natOf ds) 0 (by omega)
  · rw [parse_word _ _ .line ['L'] D (['N'] ++ ds) ['F', 'X'] _ (['F', 'X'], .force 0)
      (by decide) hD hD0 hid hW (by decide) (by decide) (by simp)]
    obtain ⟨u, us, hq, hu, hus⟩ := suffix_quantity (['F', 'X'], .force 0) (by decide)
    simp only [found, finish, if_true, hq, hu]
    refine ⟨_, rfl, ?_⟩
    simp only [getOutput, nth_eq _ _ (show natOf D ≠ 0 by omega), hl]
    exact checked_throws l.N l.force (natOf ds) (· 0) (by omega)

/-- Blank cells of the table are not refused either: the rotation of a line or the moment on a
point is a column of zeros, on a point even without a warning. -/
theorem C72_blank_false (s : Sys K) (l : LineObj K) (p : PointObj K) (ls : List (LineObj K))
    (ps : List (PointObj K)) (hl : s.lines = l :: ls) (hp : s.points = p :: ps) :
    (∃ c, parse (s.lines.map (·.N)) (s.rods.map (·.N)) ['L', '1', 'R', 'X'] = .chan c ∧
      getOutput s c = .warned) ∧
    ∃ c, parse (s.lines.map (·.N)) (s.rods.map (·.N)) ['P', '1', 'M', 'X'] = .chan c ∧
      getOutput s c = .zero := by
  constructor
  · have := parse_word (s.lines.map (·.N)) (s.rods.map (·.N)) .line ['L'] ['1'] [] ['R', 'X'] .whole
      (['R', 'X'], .rotation 0)
      (by decide) (by decide) (by simp) (by decide) .whole (by decide) (by decide) (by simp)
    obtain ⟨u, us, hq, hu, hus⟩ := suffix_quantity (['R', 'X'], .rotation 0) (by decide)
    simp only [found, finish, if_true, hq, hu] at this
    exact ⟨_, this, by simp [getOutput, nth, natOf, hl, lineOutput, Quant.code]⟩
  · have := parse_word (s.lines.map (·.N)) (s.rods.map (·.N)) .point ['P'] ['1'] [] ['M', 'X'] .whole
      (['M', 'X'], .moment 0)
      (by decide) (by decide) (by simp) (by decide) .whole (by decide) (by decide) (by simp)
    obtain ⟨u, us, hq, hu, hus⟩ := suffix_quantity (['M', 'X'], .moment 0) (by decide)
    simp only [found, finish, if_true, hq, hu] at this
    exact ⟨_, this, by simp [getOutput, nth, natOf, hp, pointOutput, Quant.code]⟩

/-- The title of a column need not tell what it is: `R1TEN` and `R2TEN` have the same one. -/
theorem C72_titles_false (ns ms : List ℕ) : ∃ c d,
    parse ns ms "R1TEN".toList = .chan c ∧ parse ns ms "R2TEN".toList = .chan d ∧
    c.name = d.name ∧ c.id ≠ d.id := by
  have h1 : parse ns ms ("R1TEN".toList) =
      .chan ⟨"TenEndA".toList, "(N)       ".toList, .ten, .rod, -1, 1⟩ := by
    rfl
  have h2 : parse ns ms ("R2TEN".toList) =
      .chan ⟨"TenEndA".toList, "(N)       ".toList, .ten, .rod, -1, 2⟩ := by
    rfl
  exact ⟨_, _, h1, h2, rfl, by decide⟩

/-- The letters before the number of a node are not looked at. -/
theorem C72_letters_false (ns ms : List ℕ) :
    ∃ c, parse ns ms "L1XYZ5PX".toList = .chan c ∧ c.node = 5 := by
  refine ⟨⟨"L1XYZ5PX".toList, "(m)       ".toList, .posX, .line, 5, 1⟩, rfl, rfl⟩

/-! ## The hypotheses can be met -/

/-- A line of two segments and a body. -/
def exSys : Sys ℚ where
  lines := [⟨2, [![0, 0, -50], ![20, 0, -25], ![40, 0, 0]], [![0, 0, 0], ![1, 0, 0], ![2, 0, 0]],
    [![1, 0, 2], ![0, 0, 1], ![3, 0, 4]], [![5, 0, 0], ![6, 0, 0], ![7, 0, 0]]⟩]
  points := [⟨![1, 2, 3], ![0, 0, 0], ![0, 0, 0], ![0, 0, 0]⟩]
  rods := []
  bodies := [⟨![1, 2, 3], ![0, 0, 1], ![1, 2, 3, 4, 5, 6], ![1, 2, 3, 4, 5, 6], ![1, 2, 3, 4, 5, 6],
    ![1, 2, 3, 4, 5, 6]⟩]
  norm := fun v => v 0 + v 1 + v 2
  deg := 57

example : Sized exSys := by
  constructor
  · intro l hl; simp only [exSys, List.mem_singleton] at hl; subst hl; decide
  · intro l hl; simp [exSys] at hl

example : ∃ c, parse (exSys.lines.map (·.N)) (exSys.rods.map (·.N)) "Line1N1Pz".toList = .chan c ∧
    c.name = "Line1N1Pz".toList ∧ getOutput exSys c = .val (-25) :=
  ⟨⟨"Line1N1Pz".toList, "(m)       ".toList, .posZ, .line, 1, 1⟩, by decide +kernel, rfl,
    by decide +kernel⟩

example : docValue exSys .line 1 (.node 1) (.position 2) = some (-25) := by decide +kernel
example : docValue exSys .line 1 .whole .endB = some 7 := by decide +kernel
example : docValue exSys .body 1 .whole (.rotVelocity 2) = some 342 := by decide +kernel
example : parse [2] [] "fairten1".toList =
    .chan ⟨"fairten1".toList, "(N)       ".toList, .ten, .line, 2, 1⟩ := by decide +kernel
example : parse [2] [] "fairten2".toList = .ub := by decide +kernel
example : parse [2] [] "L1N1".toList = .skipped := by decide +kernel

/-- **C72** (numbers). No two quantities share a number, so the number kept for a channel says which quantity
it is. -/
theorem C72_codes : Function.Injective Q.num := by
  intro a b h
  cases a <;> cases b <;> first | rfl | (simp [Q.num] at h)

end MD.Channel
