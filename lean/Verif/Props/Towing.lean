import Verif.Props.Relabel
import Verif.Lemmas.Drift
import Verif.Lemmas.RelateMoored

/-!
# C107: towing through the water is the same as standing in a current
-/

set_option linter.unusedSimpArgs false
set_option linter.unusedSectionVars false
set_option linter.unusedVariables false

namespace MD.Towing

open Matrix MD.Mat MD.Mooring MD.Bodies MD.Moored MD.Time
open MD.Frame (auxOf call)
open MD.Relabel (Sound endVal)

/-! ## Lines -/

/-- A line somewhere else (by `s`) and moving with `u` in addition. -/
structure Moved (s u : V) (L L' : Line) : Prop where
  rest : L' = { L with r := L'.r, rd := L'.rd }
  N : 1 ≤ L.N
  r : ∀ j ≤ L.N, L'.r j = L.r j + s
  rd : ∀ j ≤ L.N, L'.rd j = L.rd j + u

/-- The water flows with `u` in addition; the bottom is plane and without friction. -/
structure Flow (s u : V) (N : ℕ) (e e' : Env) : Prop where
  rho_w : e'.rho_w = e.rho_w
  g : e'.g = e.g
  kb : e'.kb = e.kb
  cb : e'.cb = e.cb
  fric : e.frictionCoefficient = 0
  fric' : e'.frictionCoefficient = 0
  depth : ∀ x y, e'.waterDepth (x + s 0) (y + s 1) = e.waterDepth x y
  zeta : ∀ j ≤ N, e'.zeta j = e.zeta j
  U : ∀ j ≤ N, e'.U j = e.U j + u
  Ud : ∀ j ≤ N, e'.Ud j = e.Ud j
  pdyn : ∀ j ≤ N, e'.pdyn j = e.pdyn j

section line
variable {s u : V} {L L' : Line} (h : Moved s u L L')
include h

theorem m_N : L'.N = L.N := by rw [h.rest]
theorem m_d : L'.d = L.d := by rw [h.rest]
theorem m_A : L'.A = L.A := by rw [h.rest]
theorem m_l : L'.l = L.l := by rw [h.rest]
theorem m_V : L'.V = L.V := by rw [h.rest]
theorem m_rho : L'.rho = L.rho := by rw [h.rest]
theorem m_isEI : isEI L' = isEI L := by rw [h.rest]; rfl
theorem m_isPb : L'.isPb = L.isPb := by rw [h.rest]
theorem m_eA : L'.endTypeA = L.endTypeA := by rw [h.rest]
theorem m_eB : L'.endTypeB = L.endTypeB := by rw [h.rest]
theorem m_qA : L'.qA = L.qA := by rw [h.rest]
theorem m_qB : L'.qB = L.qB := by rw [h.rest]

theorem m_unit {i j : ℕ} (hi : i ≤ L.N) (hj : j ≤ L.N) : unitvector (L'.r i) (L'.r j) = unitvector (L.r i) (L.r j) := by
  unfold unitvector
  rw [h.r i hi, h.r j hj, add_sub_add_right_eq_sub]

theorem m_qs {i : ℕ} (hi : i < L.N) : qs L' i = qs L i := by
  unfold qs
  rw [m_unit h hi.le hi]

theorem m_lstr {i : ℕ} (hi : i < L.N) : lstr L' i = lstr L i := by
  unfold lstr
  rw [m_unit h hi.le hi]

theorem m_ldstr {i : ℕ} (hi : i < L.N) : ldstr L' i = ldstr L i := by
  unfold ldstr
  rw [m_qs h hi, h.rd i hi.le, h.rd (i + 1) hi, add_sub_add_right_eq_sub]

theorem m_q {i : ℕ} (hi : i ≤ L.N) : q L' i = q L i := by
  have hN := h.N
  unfold q
  rw [m_eA h, m_eB h, m_isEI h, m_qA h, m_qB h, m_N h, m_unit h (Nat.zero_le _) hN,
    m_unit h (Nat.sub_le _ _) le_rfl]
  split_ifs with h0 _ h1 <;> try rfl
  rw [m_unit h (by omega) (by omega)]

theorem m_Kurv {i : ℕ} (hi : i ≤ L.N) : Kurv L' i = Kurv L i := by
  have hN := h.N
  rw [Reverse.Kurv_eq, Reverse.Kurv_eq]
  rw [m_eA h, m_eB h, m_isEI h, m_isPb h, m_N h]
  by_cases h1 : isEI L ∨ L.isPb = true
  · rw [if_pos h1, if_pos h1]
    by_cases h0 : i = 0
    · subst h0
      simp only [if_true]
      rw [m_lstr h hN, m_qs h hN, m_q h hi]
    · by_cases h2 : i = L.N
      · rw [if_neg h0, if_neg h0, if_pos h2, if_pos h2, m_lstr h (by omega), m_qs h (by omega), m_q h hi]
      · rw [if_neg h0, if_neg h0, if_neg h2, if_neg h2, m_lstr h (by omega), m_lstr h (by omega), m_qs h (by omega),
          m_qs h (by omega)]
  · rw [if_neg h1, if_neg h1]

theorem m_pvec {i : ℕ} (hi : i ≤ L.N) : pvec L' i = pvec L i := by
  have hN := h.N
  have e : (if i = 0 then q L' 0 ⨯₃ qs L' 0 else if i = L'.N then qs L' (i - 1) ⨯₃ q L' L'.N else qs L' (i - 1) ⨯₃ qs L' i) =
      (if i = 0 then q L 0 ⨯₃ qs L 0 else if i = L.N then qs L (i - 1) ⨯₃ q L L.N else qs L (i - 1) ⨯₃ qs L i) := by
    rw [m_N h]
    by_cases h0 : i = 0
    · rw [if_pos h0, if_pos h0, m_q h (Nat.zero_le _), m_qs h hN]
    · by_cases h1 : i = L.N
      · rw [if_neg h0, if_neg h0, if_pos h1, if_pos h1, m_q h le_rfl, m_qs h (by omega)]
      · rw [if_neg h0, if_neg h0, if_neg h1, if_neg h1, m_qs h (by omega), m_qs h (by omega)]
  unfold pvec
  rw [m_Kurv h hi, e]

theorem m_adjacent {f f' : ℕ → ℝ} (hf : ∀ j < L.N, f' j = f j) {i : ℕ} (hi : i ≤ L.N) :
    adjacent L'.N f' i = adjacent L.N f i := by
  have hN := h.N
  unfold adjacent
  rw [m_N h]
  by_cases h0 : i = 0
  · rw [if_pos h0, if_pos h0, hf i (by omega)]
  · by_cases h1 : i = L.N
    · rw [if_neg h0, if_neg h0, if_pos h1, if_pos h1, hf _ (by omega)]
    · rw [if_neg h0, if_neg h0, if_neg h1, if_neg h1, hf _ (by omega), hf _ (by omega)]

theorem m_T {i : ℕ} (hi : i < L.N) : T L' i = T L i := by
  have e : ∀ a b, getNonlinearE L' a b = getNonlinearE L a b := by
    intro a b
    rw [h.rest]
    rfl
  unfold T
  rw [m_lstr h hi, m_qs h hi, m_l h, m_A h, e]

theorem m_Td {i : ℕ} (hi : i < L.N) : Td L' i = Td L i := by
  have e : ∀ a b, getNonlinearC L' a b = getNonlinearC L a b := by
    intro a b
    rw [h.rest]
    rfl
  unfold Td
  rw [m_ldstr h hi, m_qs h hi, m_l h, m_A h, e]

theorem m_axial {i : ℕ} (hi : i ≤ L.N) : Mooring.axial L' i = Mooring.axial L i := by
  have hN := h.N
  unfold Mooring.axial
  rw [m_N h]
  by_cases h0 : i = 0
  · rw [if_pos h0, if_pos h0, m_T h (by omega), m_Td h (by omega)]
  · by_cases h1 : i = L.N
    · rw [if_neg h0, if_neg h0, if_pos h1, if_pos h1, m_T h (by omega), m_Td h (by omega)]
    · rw [if_neg h0, if_neg h0, if_neg h1, if_neg h1, m_T h (by omega), m_Td h (by omega), m_T h (by omega), m_Td h (by omega)]

theorem m_bend (b : ℕ → V) {i : ℕ} (hi : i ≤ L.N) : bendNode L' b i = bendNode L b i := by
  have hN := h.N
  have e : ∀ a, getNonlinearEI L' a = getNonlinearEI L a := by
    intro a
    rw [h.rest]
    rfl
  unfold bendNode
  dsimp only
  rw [m_Kurv h hi, m_pvec h hi, m_N h, m_eA h, m_eB h, e]
  by_cases hK : EqualRealNos (Kurv L i) 0
  · rw [if_pos hK, if_pos hK]
  · rw [if_neg hK, if_neg hK]
    by_cases h0 : i = 0
    · subst h0
      simp only [if_true]
      rw [m_lstr h hN, m_qs h hN]
    · by_cases h1 : i = L.N
      · rw [if_neg h0, if_neg h0, if_pos h1, if_pos h1, m_lstr h (by omega), m_qs h (by omega)]
      · rw [if_neg h0, if_neg h0, if_neg h1, if_neg h1, m_lstr h (by omega), m_qs h (by omega), m_lstr h (by omega),
          m_qs h (by omega)]

theorem m_Bs : Bs L' = Bs L := by
  unfold Bs
  rw [m_isEI h, m_N h]
  have : ∀ (l : List ℕ), (∀ i ∈ l, i ≤ L.N) → ∀ b, l.foldl (bendNode L') b = l.foldl (bendNode L) b := by
    intro l
    induction l with
    | nil => intro _ _; rfl
    | cons i l ih =>
      intro hl b
      rw [List.foldl_cons, List.foldl_cons, m_bend h b (hl i List.mem_cons_self),
        ih fun j hj => hl j (List.mem_cons_of_mem _ hj)]
  rw [this _ fun i hi => Nat.lt_succ_iff.1 (List.mem_range.1 hi)]

variable {e e' : Env} (he : Flow s u L.N e e') (hs : s 2 = 0) (hu : u 2 = 0)
include he hs

theorem m_z {j : ℕ} (hj : j ≤ L.N) : L'.r j 2 = L.r j 2 := by
  rw [h.r j hj, Pi.add_apply, hs, add_zero]

theorem m_F {j : ℕ} (hj : j < L.N) : F L' e' j = F L e j := by
  unfold F
  rw [he.zeta j hj.le, he.zeta (j + 1) hj, m_d h]
  have e1 := m_z h he hs hj.le
  have e2 := m_z h he hs (show j + 1 ≤ L.N from hj)
  have e3 : ∀ y : ℝ, L'.r j - ![0, 0, y] - (L'.r (j + 1) - ![0, 0, y]) = L.r j - ![0, 0, y] - (L.r (j + 1) - ![0, 0, y]) := by
    intro y
    rw [h.r j hj.le, h.r (j + 1) hj]
    abel
  have e4 : ∀ y : ℝ, L'.r (j + 1) - ![0, 0, y] - (L'.r j - ![0, 0, y]) = L.r (j + 1) - ![0, 0, y] - (L.r j - ![0, 0, y]) := by
    intro y
    rw [h.r j hj.le, h.r (j + 1) hj]
    abel
  unfold calcSubSeg
  dsimp only
  rw [e1, e2]
  split_ifs <;> simp only [e3, e4, Pi.sub_apply, Pi.add_apply, e1, e2]

theorem m_FV {i : ℕ} (hi : i ≤ L.N) : adjacent L'.N (fun j => F L' e' j * L'.V j) i = adjacent L.N (fun j => F L e j * L.V j) i :=
  m_adjacent h (fun j hj => by rw [m_F h he hs hj, m_V h]) hi

theorem m_Fl {i : ℕ} (hi : i ≤ L.N) : adjacent L'.N (fun j => F L' e' j * L'.l j) i = adjacent L.N (fun j => F L e j * L.l j) i :=
  m_adjacent h (fun j hj => by rw [m_F h he hs hj, m_l h]) hi

omit he hs in
theorem m_adj_l {i : ℕ} (hi : i ≤ L.N) : adjacent L'.N L'.l i = adjacent L.N L.l i :=
  m_adjacent h (fun j hj => by rw [m_l h]) hi

theorem m_M {i : ℕ} (hi : i ≤ L.N) : M L' e' i = M L e i := by
  have c1 : L'.Can = L.Can := by rw [h.rest]
  have c2 : L'.Cat = L.Cat := by rw [h.rest]
  unfold M m v
  rw [m_FV h he hs hi, m_adj_l h hi, m_q h hi, m_d h, m_rho h, he.rho_w, c1, c2]

theorem m_Pb {i : ℕ} (hi : i ≤ L.N) : Pb L' e' i = Pb L e i := by
  have c : L'.pin = L.pin := by rw [h.rest]
  unfold Pb
  rw [m_isPb h, m_Kurv h hi, m_q h hi, m_pvec h hi, m_adj_l h hi, m_A h, he.rho_w, he.g, he.zeta i hi, he.pdyn i hi,
    m_z h he hs hi, c]

theorem m_W {i : ℕ} (hi : i ≤ L.N) : W L' e' i = W L e i := by
  unfold W
  rw [m_adjacent h (f := fun j => L.l j * (L.rho - F L e j * e.rho_w))
    (fun j hj => by rw [m_F h he hs hj, m_l h, m_rho h, he.rho_w]) hi, m_A h, he.g]

omit hs in
theorem m_flow {i : ℕ} (hi : i ≤ L.N) : vq L' e' i = vq L e i ∧ vp L' e' i = vp L e i ∧ aq L' e' i = aq L e i ∧
    ap L' e' i = ap L e i := by
  have e1 : vrel L' e' i = vrel L e i := by
    unfold vrel
    rw [he.U i hi, h.rd i hi, add_sub_add_right_eq_sub]
  have e2 : vq L' e' i = vq L e i := by
    unfold vq
    rw [e1, m_q h hi]
  have e3 : aq L' e' i = aq L e i := by
    unfold aq
    rw [he.Ud i hi, m_q h hi]
  refine ⟨e2, ?_, e3, ?_⟩
  · unfold vp
    rw [e1, e2]
  · unfold ap
    rw [he.Ud i hi, e3]

theorem m_drag {i : ℕ} (hi : i ≤ L.N) : Dp L' e' i = Dp L e i ∧ Dq L' e' i = Dq L e i ∧ Ap L' e' i = Ap L e i ∧
    Aq L' e' i = Aq L e i := by
  obtain ⟨h1, h2, h3, h4⟩ := m_flow h he hi
  have c1 : L'.Can = L.Can := by rw [h.rest]
  have c2 : L'.Cat = L.Cat := by rw [h.rest]
  have c3 : L'.Cdn = L.Cdn := by rw [h.rest]
  have c4 : L'.Cdt = L.Cdt := by rw [h.rest]
  refine ⟨?_, ?_, ?_, ?_⟩
  · unfold Dp
    rw [h2, m_Fl h he hs hi, m_d h, he.rho_w, c3]
  · unfold Dq
    rw [h1, m_Fl h he hs hi, m_d h, he.rho_w, c4]
  · unfold Ap
    rw [h4, m_FV h he hs hi, he.rho_w, c1]
  · unfold Aq
    rw [h3, m_FV h he hs hi, he.rho_w, c2]

include hu

theorem m_B {i : ℕ} (hi : i ≤ L.N) : B L' e' i = B L e i := by
  have e1 : e'.waterDepth (L'.r i 0) (L'.r i 1) = e.waterDepth (L.r i 0) (L.r i 1) := by
    rw [h.r i hi]
    exact he.depth _ _
  have e2 : L'.rd i 2 = L.rd i 2 := by rw [h.rd i hi, Pi.add_apply, hu, add_zero]
  unfold B
  dsimp only
  rw [e1, m_z h he hs hi, e2, m_adj_l h hi, m_d h, he.kb, he.cb, he.fric, he.fric']
  simp

/-- C107: forces and masses of a line. -/
theorem C107_line {i : ℕ} (hi : i ≤ L.N) : Fnet L' e' i = Fnet L e i ∧ M L' e' i = M L e i := by
  refine ⟨?_, m_M h he hs hi⟩
  obtain ⟨h1, h2, h3, h4⟩ := m_drag h he hs hi
  unfold Fnet
  rw [m_axial h hi, m_W h he hs hi, h1, h2, h3, h4, m_B h he hs hu hi, m_Bs h, m_Pb h he hs hi]

end line

/-! ## Systems -/

/-- The same system in the same water, which is seen by somebody moving with `-u`: all that is in the water moves with
`u` in addition.  There are no anchors, the bottom is plane along `u` and without friction, and each end of each line is
held by a point. -/
structure World (u : V) (n : ℕ → ℕ) (S S' : System) : Prop where
  nl : S'.nl = S.nl
  np : S'.np = S.np
  kind : S'.kind = S.kind
  att : S'.att = S.att
  sea : S'.sea = S.sea
  level : u 2 = 0
  fric : S.sea.frictionCoefficient = 0
  depth : ∀ τ x y, S.sea.waterDepth (x + τ * u 0) (y + τ * u 1) = S.sea.waterDepth x y
  kin : ∀ t p, S'.kin t (p + t • u) = ((S.kin t p).1, (S.kin t p).2.1 + u, (S.kin t p).2.2)
  loose : ∀ i < S.np, S.kind i ≠ .FIXED
  held : ∀ k < S.nl, ∀ p, ∃ i < S.np, (k, p) ∈ S.att i
  inside : ∀ i < S.np, ∀ a ∈ S.att i, a.1 < S.nl
  pos : ∀ k < S.nl, 1 ≤ n k

/-- The lines and points are the same but for places and velocities. -/
structure Base (n : ℕ → ℕ) (S : System) (m m' : Mem) : Prop where
  line : ∀ k < S.nl, m'.line k = { m.line k with r := (m'.line k).r, rd := (m'.line k).rd }
  N : ∀ k < S.nl, (m.line k).N = n k
  point : ∀ i < S.np, m'.point i = { m.point i with r := (m'.point i).r, rd := (m'.point i).rd }
  bad : m'.bad ↔ m.bad

/-- In a call that began at time `T`. -/
structure InCall (u : V) (n : ℕ → ℕ) (S : System) (T : ℝ) (m m' : Mem) : Prop where
  base : Base n S m m'
  ves : ∀ i < S.np, S.kind i = .COUPLED → m'.ves i = ((m.ves i).1 + T • u, (m.ves i).2 + u)

/-- Places and velocities at time `τ`. -/
structure Placed (u : V) (S : System) (τ : ℝ) (m m' : Mem) : Prop where
  t : m.t = τ
  t' : m'.t = τ
  line : ∀ k < S.nl, Moved (τ • u) u (m.line k) (m'.line k)
  point : ∀ i < S.np, (m'.point i).r = (m.point i).r + τ • u ∧ (m'.point i).rd = (m.point i).rd + u

open Classical in
/-- A steady rate: `x` for each inner node and each free point. -/
noncomputable def all (n : ℕ → ℕ) (S : System) (x : V × V) : State :=
  (fun k j => if k < S.nl ∧ j + 1 < n k then x else 0, fun i => if i < S.np ∧ S.kind i = .FREE then x else 0)

variable {u : V} {n : ℕ → ℕ} {S S' : System}

/-! ### The objects are told their places -/

/-- The ends `D` have got their places. -/
structure Lines (u : V) (n : ℕ → ℕ) (S : System) (τ : ℝ) (D : ℕ × EndPt → Prop) (f f' : ℕ → Line) : Prop where
  line : ∀ k < S.nl, f' k = { f k with r := (f' k).r, rd := (f' k).rd }
  N : ∀ k < S.nl, (f k).N = n k
  ends : ∀ k < S.nl, ∀ p, D (k, p) → (endVal p (f' k)).1 = (endVal p (f k)).1 + τ • u ∧
    (endVal p (f' k)).2.1 = (endVal p (f k)).2.1 + u

theorem lines_set (hw : World u n S S') {τ : ℝ} {D : ℕ × EndPt → Prop} {f f' : ℕ → Line} (h : Lines u n S τ D f f') (x xd : V)
    (a : ℕ × EndPt) (ha : a.1 < S.nl) :
    Lines u n S τ (fun b => b = a ∨ D b) (Function.update f a.1 (setEnd x xd a.2 (f a.1)))
      (Function.update f' a.1 (setEnd (x + τ • u) (xd + u) a.2 (f' a.1))) := by
  obtain ⟨k0, p0⟩ := a
  have hN0 : (f' k0).N = (f k0).N := by rw [h.line k0 ha]
  have hp : 1 ≤ (f k0).N := by
    rw [h.N k0 ha]
    exact hw.pos k0 ha
  refine ⟨?_, ?_, ?_⟩
  · intro k hk
    by_cases hkk : k = k0
    · subst hkk
      simp only [Function.update_self]
      have := h.line k hk
      cases p0 <;> simp only [setEnd] <;> rw [this]
    · simp only [Function.update_of_ne hkk]
      exact h.line k hk
  · intro k hk
    by_cases hkk : k = k0
    · subst hkk
      simp only [Function.update_self]
      have := h.N k hk
      cases p0 <;> exact this
    · simp only [Function.update_of_ne hkk]
      exact h.N k hk
  · intro k hk p hD
    by_cases hkk : k = k0
    · subst hkk
      simp only [Function.update_self]
      by_cases hpp : p = p0
      · subst hpp
        cases p <;> simp [endVal, setEnd]
      · have hD' : D (k, p) := by
          rcases hD with hD | hD
          · exact absurd (by injection hD) hpp
          · exact hD
        have := h.ends k hk p hD'
        cases p <;> cases p0 <;> first | exact absurd rfl hpp | skip
        · simp only [endVal, setEnd] at this ⊢
          rw [Function.update_of_ne (by omega), Function.update_of_ne (by omega), Function.update_of_ne (by omega),
            Function.update_of_ne (by omega)]
          exact this
        · simp only [endVal, setEnd] at this ⊢
          rw [Function.update_of_ne (by omega), Function.update_of_ne (by omega), Function.update_of_ne (by omega),
            Function.update_of_ne (by omega)]
          exact this
    · simp only [Function.update_of_ne hkk]
      refine h.ends k hk p ?_
      rcases hD with hD | hD
      · exact absurd (by injection hD) hkk
      · exact hD

theorem lines_weak {τ : ℝ} {D D' : ℕ × EndPt → Prop} {f f' : ℕ → Line} (h : Lines u n S τ D f f') (hD : ∀ a, D' a → D a) :
    Lines u n S τ D' f f' :=
  ⟨h.line, h.N, fun k hk p hd => h.ends k hk p (hD _ hd)⟩

theorem lines_pass (hw : World u n S S') {τ : ℝ} {D : ℕ × EndPt → Prop} {f f' : ℕ → Line} (h : Lines u n S τ D f f') (x xd : V)
    (l : List (ℕ × EndPt)) (hl : ∀ a ∈ l, a.1 < S.nl) :
    Lines u n S τ (fun b => b ∈ l ∨ D b) (pass x xd l f) (pass (x + τ • u) (xd + u) l f') := by
  unfold pass
  induction l generalizing f f' D with
  | nil => exact lines_weak h fun a ha => ha.resolve_left (by simp)
  | cons a l ih =>
    have h1 := lines_set hw h x xd a (hl a List.mem_cons_self)
    refine lines_weak (ih h1 fun b hb => hl b (List.mem_cons_of_mem _ hb)) ?_
    rintro b (hb | hb)
    · rcases List.mem_cons.1 hb with hb | hb
      · exact Or.inr (Or.inl hb)
      · exact Or.inl hb
    · exact Or.inr (Or.inr hb)

/-- The points `Q` have got their places, and the lines they hold. -/
structure Some (u : V) (n : ℕ → ℕ) (S : System) (T τ : ℝ) (Q : ℕ → Prop) (m m' : Mem) : Prop where
  inCall : InCall u n S T m m'
  lines : Lines u n S τ (fun a => ∃ i < S.np, Q i ∧ a ∈ S.att i) m.line m'.line
  point : ∀ i < S.np, Q i → (m'.point i).r = (m.point i).r + τ • u ∧ (m'.point i).rd = (m.point i).rd + u

theorem some_move (hw : World u n S S') {T τ : ℝ} {Q : ℕ → Prop} {m m' : Mem} (h : Some u n S T τ Q m m') {i : ℕ} (hi : i < S.np)
    (x xd : V) : Some u n S T τ (fun j => j = i ∨ Q j) (move S i x xd m) (move S' i (x + τ • u) (xd + u) m') := by
  have h1 : Lines u n S τ (fun b => b ∈ S.att i ∨ ∃ i < S.np, Q i ∧ b ∈ S.att i) (move S i x xd m).line
      (move S' i (x + τ • u) (xd + u) m').line := by
    simp only [move, hw.att]
    exact lines_pass hw h.lines x xd _ (hw.inside i hi)
  refine ⟨⟨⟨h1.line, h1.N, ?_, h.inCall.base.bad⟩, h.inCall.ves⟩, lines_weak h1 ?_, ?_⟩
  · intro j hj
    by_cases hji : j = i
    · subst hji
      simp only [move, Function.update_self]
      rw [h.inCall.base.point j hj]
    · simp only [move, Function.update_of_ne hji]
      exact h.inCall.base.point j hj
  · rintro a ⟨j, hj, rfl | hq, ha⟩
    · exact Or.inl ha
    · exact Or.inr ⟨j, hj, hq, ha⟩
  · intro j hj hq
    by_cases hji : j = i
    · subst hji
      simp [move]
    · simp only [move, Function.update_of_ne hji]
      exact h.point j hj (hq.resolve_left hji)

theorem some_weak {T τ : ℝ} {Q Q' : ℕ → Prop} {m m' : Mem} (h : Some u n S T τ Q m m') (hQ : ∀ i < S.np, Q' i → Q i) :
    Some u n S T τ Q' m m' :=
  ⟨h.inCall, lines_weak h.lines fun a ⟨i, hi, hq, ha⟩ => ⟨i, hi, hQ i hi hq, ha⟩, fun i hi hq => h.point i hi (hQ i hi hq)⟩

theorem some_fold {T τ : ℝ} {k : Kind} {f f' : Mem → ℕ → Mem}
    (hf : ∀ Q m m' i, i < S.np → Some u n S T τ Q m m' → Some u n S T τ (fun j => (j = i ∧ S.kind i = k) ∨ Q j) (f m i) (f' m' i))
    (l : List ℕ) (hl : ∀ i ∈ l, i < S.np) {Q : ℕ → Prop} {m m' : Mem} (h : Some u n S T τ Q m m') :
    Some u n S T τ (fun j => (j ∈ l ∧ S.kind j = k) ∨ Q j) (l.foldl f m) (l.foldl f' m') := by
  induction l generalizing m m' Q with
  | nil => exact some_weak h fun i _ hi => hi.resolve_left (by simp)
  | cons i l ih =>
    refine some_weak (ih (fun j hj => hl j (List.mem_cons_of_mem _ hj)) (hf _ _ _ _ (hl i List.mem_cons_self) h)) ?_
    rintro j - (⟨hj, hk⟩ | hj)
    · rcases List.mem_cons.1 hj with rfl | hj
      · exact Or.inr (Or.inl ⟨rfl, hk⟩)
      · exact Or.inl ⟨hj, hk⟩
    · exact Or.inr (Or.inr hj)

/-- All objects have got their places. -/
structure Just (u : V) (n : ℕ → ℕ) (S : System) (T τ : ℝ) (m m' : Mem) : Prop where
  inCall : InCall u n S T m m'
  placed : Placed u S τ m m'

theorem update_end (hw : World u n S S') {T τ : ℝ} {a a' : Mem} (h3 : Some u n S T τ (fun _ => True) a a') (e e' : State)
    (he' : e' = e + (all n S (0, u) + τ • all n S (u, 0))) :
    Just u n S T τ { a with t := τ, line := fun i => if i < S.nl then lineState (e.1 i) (a.line i) else a.line i }
      { a' with t := τ, line := fun i => if i < S'.nl then lineState (e'.1 i) (a'.line i) else a'.line i } := by
  have hb := h3.inCall.base
  refine ⟨⟨⟨?_, ?_, hb.point, hb.bad⟩, h3.inCall.ves⟩, rfl, rfl, ?_, fun i hi => h3.point i hi trivial⟩
  · intro k hk
    simp only [hw.nl, if_pos hk]
    unfold lineState
    dsimp only
    rw [hb.line k hk]
  · intro k hk
    simp only [if_pos hk]
    exact hb.N k hk
  · intro k hk
    have hN := hb.N k hk
    have hN' : (a'.line k).N = n k := by rw [hb.line k hk]; exact hN
    have hA := h3.lines.ends k hk .BOTTOM (by obtain ⟨i, hi, ha⟩ := hw.held k hk .BOTTOM; exact ⟨i, hi, trivial, ha⟩)
    have hB := h3.lines.ends k hk .TOP (by obtain ⟨i, hi, ha⟩ := hw.held k hk .TOP; exact ⟨i, hi, trivial, ha⟩)
    simp only [endVal, hN, hN'] at hA hB
    have e1 : ∀ j, 1 ≤ j → j < n k → e'.1 k (j - 1) = ((e.1 k (j - 1)).1 + τ • u, (e.1 k (j - 1)).2 + u) := by
      intro j h1 h2
      rw [he']
      simp only [Prod.fst_add, Prod.smul_fst, Pi.add_apply, Pi.smul_apply, all,
        if_pos (show k < S.nl ∧ j - 1 + 1 < n k from ⟨hk, by omega⟩)]
      apply Prod.ext <;> simp
    simp only [hw.nl, if_pos hk]
    refine ⟨?_, ?_, ?_, ?_⟩
    · unfold lineState
      dsimp only
      rw [hb.line k hk]
    · show 1 ≤ (a.line k).N
      rw [hN]
      exact hw.pos k hk
    · intro j hj
      have hj' : j ≤ n k := by rw [← hN]; exact hj
      simp only [lineState, hN, hN']
      by_cases hc : 1 ≤ j ∧ j < n k
      · rw [if_pos hc, if_pos hc, e1 j hc.1 hc.2]
      · rw [if_neg hc, if_neg hc]
        have : j = 0 ∨ j = n k := by omega
        rcases this with rfl | rfl
        · exact hA.1
        · exact hB.1
    · intro j hj
      have hj' : j ≤ n k := by rw [← hN]; exact hj
      simp only [lineState, hN, hN']
      by_cases hc : 1 ≤ j ∧ j < n k
      · rw [if_pos hc, if_pos hc, e1 j hc.1 hc.2]
      · rw [if_neg hc, if_neg hc]
        have : j = 0 ∨ j = n k := by omega
        rcases this with rfl | rfl
        · exact hA.2
        · exact hB.2

theorem update_tow (hw : World u n S S') (T tl : ℝ) (e : State) {m m' : Mem} (h : InCall u n S T m m') :
    Just u n S T (T + tl) (update S (T + tl) tl e m)
      (update S' (T + tl) tl (e + (all n S (0, u) + (T + tl) • all n S (u, 0))) m') := by
  generalize he' : e + (all n S (0, u) + (T + tl) • all n S (u, 0)) = e'
  have h0 : Some u n S T (T + tl) (fun _ => False) m m' :=
    ⟨h, ⟨h.base.line, h.base.N, fun _ _ _ ⟨_, _, hq, _⟩ => hq.elim⟩, fun _ _ hq => hq.elim⟩
  have hr : ∀ i ∈ List.range S.np, i < S.np := fun i hi => List.mem_range.1 hi
  have h1 := some_fold (k := .COUPLED) (f := fairlead S tl) (f' := fairlead S' tl) (fun Q a a' i hi ha => by
    unfold fairlead
    rw [hw.kind]
    split_ifs with hk
    · rw [ha.inCall.ves i hi hk]
      have e1 : (a.ves i).1 + T • u + tl • ((a.ves i).2 + u) = (a.ves i).1 + tl • (a.ves i).2 + (T + tl) • u := by module
      dsimp only
      rw [e1]
      exact some_weak (some_move hw ha hi _ _) fun j _ hj => hj.imp (fun hj => hj.1) id
    · exact some_weak ha fun j _ hj => hj.resolve_left fun hc => hk hc.2) (List.range S.np) hr h0
  have h2 := some_fold (k := .FREE) (f := freeState S e) (f' := freeState S' e') (fun Q a a' i hi ha => by
    unfold freeState
    rw [hw.kind]
    split_ifs with hk
    · have e1 : e'.2 i = ((e.2 i).1 + (T + tl) • u, (e.2 i).2 + u) := by
        rw [← he']
        simp only [Prod.snd_add, Prod.smul_snd, Pi.add_apply, Pi.smul_apply, all, if_pos (show i < S.np ∧ S.kind i = .FREE from ⟨hi, hk⟩)]
        apply Prod.ext <;> simp
      rw [e1]
      exact some_weak (some_move hw ha hi _ _) fun j _ hj => hj.imp (fun hj => hj.1) id
    · exact some_weak ha fun j _ hj => hj.resolve_left fun hc => hk hc.2) (List.range S.np) hr h1
  have hn : List.range S'.np = List.range S.np := by rw [hw.np]
  have h3 : Some u n S T (T + tl) (fun _ => True) (List.foldl (freeState S e) (List.foldl (fairlead S tl) m (List.range S.np)) (List.range S.np))
      (List.foldl (freeState S' e') (List.foldl (fairlead S' tl) m' (List.range S'.np)) (List.range S'.np)) := by
    rw [hn]
    refine some_weak h2 fun i hi _ => ?_
    cases hk : S.kind i with
    | FIXED => exact absurd hk (hw.loose i hi)
    | COUPLED => exact Or.inr (Or.inl ⟨List.mem_range.2 hi, rfl⟩)
    | FREE => exact Or.inl ⟨List.mem_range.2 hi, rfl⟩
  exact update_end hw h3 e e' he'.symm

/-! ### Forces and rates -/

section
variable (hw : World u n S S') {τ : ℝ} {m m' : Mem} (hb : Base n S m m') (h : Placed u S τ m m')
include hw h

theorem flow_tow {k : ℕ} (hk : k < S.nl) : Flow (τ • u) u (m.line k).N (lineEnv S m k) (lineEnv S' m' k) := by
  have e1 : ∀ j ≤ (m.line k).N, S'.kin m'.t ((m'.line k).r j) = ((S.kin m.t ((m.line k).r j)).1,
      (S.kin m.t ((m.line k).r j)).2.1 + u, (S.kin m.t ((m.line k).r j)).2.2) := by
    intro j hj
    rw [h.t, h.t', (h.line k hk).r j hj, hw.kin]
  have f := hw.fric
  refine ⟨?_, ?_, ?_, ?_, f, ?_, ?_, ?_, ?_, ?_, ?_⟩
  · simp only [lineEnv, envOf, hw.sea]
  · simp only [lineEnv, envOf, hw.sea]
  · simp only [lineEnv, envOf, hw.sea]
  · simp only [lineEnv, envOf, hw.sea]
  · simp only [lineEnv, envOf, hw.sea, f]
  · intro x y
    simp only [lineEnv, envOf, hw.sea]
    exact hw.depth τ x y
  · intro j hj
    simp only [lineEnv, envOf, e1 j hj]
  · intro j hj
    simp only [lineEnv, envOf, e1 j hj]
  · intro j hj
    simp only [lineEnv, envOf, e1 j hj]
  · intro j hj
    simp only [lineEnv, envOf, e1 j hj]

theorem net_tow {k : ℕ} (hk : k < S.nl) {j : ℕ} (hj : j ≤ (m.line k).N) :
    Fnet (m'.line k) (lineEnv S' m' k) j = Fnet (m.line k) (lineEnv S m k) j ∧
      M (m'.line k) (lineEnv S' m' k) j = M (m.line k) (lineEnv S m k) j :=
  C107_line (h.line k hk) (flow_tow hw h hk) (by rw [Pi.smul_apply, hw.level, smul_zero]) hw.level hj

theorem node_tow {k : ℕ} (hk : k < S.nl) {j : ℕ} (hj : j ≤ (m.line k).N) :
    nodeRate S' m' k j = (nodeRate S m k j).map (· + (u, 0)) := by
  obtain ⟨h1, h2⟩ := net_tow hw h hk hj
  unfold nodeRate
  rw [h1, h2, (h.line k hk).rd j hj, Option.map_map]
  congr 1
  funext f
  simp

theorem end_tow {k : ℕ} (hk : k < S.nl) (p : EndPt) :
    getEndStuff (m'.line k) (lineEnv S' m' k) p = getEndStuff (m.line k) (lineEnv S m k) p := by
  have hN := m_N (h.line k hk)
  unfold getEndStuff
  cases p
  · obtain ⟨h1, h2⟩ := net_tow hw h hk le_rfl
    dsimp only
    rw [hN, h1, h2]
  · obtain ⟨h1, h2⟩ := net_tow hw h hk (Nat.zero_le _)
    dsimp only
    rw [h1, h2]

include hb

theorem loaded_tow {i : ℕ} (hi : i < S.np) : loaded S' m' i = (loaded S m i).map fun p =>
    { p with r := (m'.point i).r, rd := p.rd + u, U := p.U + u } := by
  have e : ∀ l : List (ℕ × EndPt), (∀ a ∈ l, a.1 < S.nl) →
      (l.mapM fun a => getEndStuff (m'.line a.1) (lineEnv S' m' a.1) a.2) =
        l.mapM fun a => getEndStuff (m.line a.1) (lineEnv S m a.1) a.2 := by
    intro l
    induction l with
    | nil => intro _; rfl
    | cons a l ih =>
      intro hl
      rw [List.mapM_cons, List.mapM_cons, ih fun b hb => hl b (List.mem_cons_of_mem _ hb),
        end_tow hw h (hl a List.mem_cons_self)]
  unfold loaded
  rw [hw.att, e _ (hw.inside i hi), Option.map_map]
  congr 1
  funext l
  have e2 := hb.point i hi
  have e3 : S'.kin m'.t (m'.point i).r = ((S.kin m.t (m.point i).r).1, (S.kin m.t (m.point i).r).2.1 + u,
      (S.kin m.t (m.point i).r).2.2) := by
    rw [h.t, h.t', (h.point i hi).1, hw.kin]
  rw [e3]
  have e4 := (h.point i hi).2
  simp only [Function.comp]
  rw [← e4]
  rw [e2]

omit hw hb h in
theorem doRHS_tow (p : Point) (x : V) (a b : ℝ) : Point.doRHS { p with r := x, rd := p.rd + u, U := p.U + u } a b = p.doRHS a b := by
  unfold Point.doRHS
  dsimp only
  rw [add_sub_add_right_eq_sub]

theorem rate_tow {i : ℕ} (hi : i < S.np) : pointRate S' m' i = (pointRate S m i).map (· + (u, 0)) := by
  unfold pointRate
  rw [loaded_tow hw hb h hi, Option.map_map, Option.map_map]
  congr 1
  funext p
  simp only [Function.comp, hw.sea, doRHS_tow]
  simp

/-- C107: the forces on points. -/
theorem C107_force {i : ℕ} (hi : i < S.np) : reported S' m' i = reported S m i := by
  unfold reported
  rw [loaded_tow hw hb h hi, Option.map_map]
  congr 1
  funext p
  simp only [Function.comp, hw.sea, doRHS_tow]

theorem asked_tow (x : ℕ ⊕ (ℕ × ℕ)) : asked S' m' x ↔ asked S m x := by
  rcases x with i | ⟨i, j⟩
  · simp only [asked, hw.np, hw.kind]
  · simp only [asked, hw.nl]
    constructor
    · rintro ⟨h1, h2, h3⟩
      exact ⟨h1, h2, by rw [← m_N (h.line i h1)]; exact h3⟩
    · rintro ⟨h1, h2, h3⟩
      exact ⟨h1, h2, by rw [m_N (h.line i h1)]; exact h3⟩

theorem bad_tow : (eval S' m').2.bad ↔ (eval S m).2.bad := by
  simp only [eval, hb.bad, asked_tow hw hb h]
  have e1 : (∃ i j, asked S m (.inr (i, j)) ∧ nodeRate S' m' i j = none) ↔ ∃ i j, asked S m (.inr (i, j)) ∧ nodeRate S m i j = none := by
    refine exists_congr fun i => exists_congr fun j => and_congr_right fun ha => ?_
    rw [node_tow hw h ha.1 (show j ≤ _ from ha.2.2.le), Option.map_eq_none_iff]
  have e2 : (∃ i, asked S m (.inl i) ∧ pointRate S' m' i = none) ↔ ∃ i, asked S m (.inl i) ∧ pointRate S m i = none := by
    refine exists_congr fun i => and_congr_right fun ha => ?_
    rw [rate_tow hw hb h ha.1, Option.map_eq_none_iff]
  rw [e1, e2]

theorem evals_tow (ho : ¬ (eval S m).2.bad) : (eval S' m').1 = (eval S m).1 + all n S (u, 0) := by
  simp only [eval, not_or, not_exists, not_and] at ho
  classical
  apply Prod.ext
  · funext i j
    simp only [eval, Prod.fst_add, Pi.add_apply, all]
    rw [if_congr (asked_tow hw hb h _) rfl rfl]
    by_cases ha : asked S m (.inr (i, j + 1))
    · rw [if_pos ha, if_pos ha, if_pos ⟨ha.1, by rw [← hb.N i ha.1]; exact ha.2.2⟩,
        node_tow hw h ha.1 (show j + 1 ≤ _ from ha.2.2.le)]
      cases hc : nodeRate S m i (j + 1) with
      | none => exact absurd hc (ho.2.1 i (j + 1) ha)
      | some x => rfl
    · rw [if_neg ha, if_neg ha, if_neg, add_zero]
      rintro ⟨h1, h2⟩
      exact ha ⟨h1, by omega, by rw [hb.N i h1]; exact h2⟩
  · funext i
    simp only [eval, Prod.snd_add, Pi.add_apply, all]
    rw [if_congr (asked_tow hw hb h _) rfl rfl]
    by_cases ha : asked S m (.inl i)
    · rw [if_pos ha, if_pos ha, if_pos (show i < S.np ∧ S.kind i = .FREE from ha), rate_tow hw hb h ha.1]
      cases hc : pointRate S m i with
      | none => exact absurd hc (ho.2.2 i ha)
      | some x => rfl
    · have ha' : ¬ (i < S.np ∧ S.kind i = .FREE) := ha
      simp only [if_neg ha, if_neg ha', add_zero]

end

/-! ### Simulations -/

theorem machine_tow (hw : World u n S S') : Drift.Drifts (all n S (0, u)) (all n S (u, 0)) (fun m => ¬ m.bad) (machine S) (machine S')
    (InCall u n S) (Just u n S) where
  update T tl e m m' h := update_tow hw T tl e h
  weak T τ m m' h := h.inCall
  rate T τ m m' h ho := evals_tow hw h.inCall.base h.placed ho
  eval T τ m m' h := ⟨⟨h.inCall.base.line, h.inCall.base.N, h.inCall.base.point, bad_tow hw h.inCall.base h.placed⟩, h.inCall.ves⟩
  next T m m' h := h

theorem remembers (S : System) : Relate.Remembers (fun m : Mem => ¬ m.bad) (machine S) where
  okU t tl e m h hb := by
    have e1 : ∀ (f : Mem → ℕ → Mem), (∀ m i, (f m i).bad = m.bad) → ∀ (l : List ℕ) (m : Mem), (l.foldl f m).bad = m.bad := by
      intro f hf l
      induction l with
      | nil => intro _; rfl
      | cons i l ih => intro m; rw [List.foldl_cons, ih, hf]
    apply h
    show ((List.range S.np).foldl (freeState S e) ((List.range S.np).foldl (fairlead S tl) m)).bad
    rw [e1 _ (fun m i => by unfold freeState; split_ifs <;> rfl), e1 _ (fun m i => by unfold fairlead; split_ifs <;> rfl)]
    exact hb
  okE m h hb := h (Or.inl hb)
  okN m h := h

/-- Newmark's formula and the masks do not mind a steady velocity; Anderson's criterion looks at accelerations. -/
theorem aux_tow (relax : ℕ → ℕ → ℝ) (conv : State × State → State × State → Bool) (fresh : ℕ ⊕ ℕ → Bool)
    (hc : ∀ a b, conv (a.1 + all n S (u, 0), a.2 + all n S (u, 0)) (b.1 + all n S (u, 0), b.2 + all n S (u, 0)) = conv a b) :
    Drift.AuxDrifts (all n S (u, 0)) (auxOf relax conv fresh) (auxOf relax conv fresh) := by
  have a1 : ∀ k j, ((all n S (u, 0)).1 k j).2 = 0 := by
    intro k j
    simp only [all]
    split_ifs <;> rfl
  have a2 : ∀ i, ((all n S (u, 0)).2 i).2 = 0 := by
    intro i
    simp only [all]
    split_ifs <;> rfl
  refine ⟨fun _ _ => rfl, ?_, ?_, rfl, rfl, hc⟩
  · intro ga be a b h
    apply Prod.ext
    · funext k j
      simp only [auxOf, newmarkPL, Prod.fst_add, Pi.add_apply]
      apply Prod.ext
      · simp only [Prod.fst_add, Prod.snd_add, a1, add_zero]
        abel
      · simp only [Prod.fst_add, Prod.snd_add, a1, add_zero]
    · funext i
      simp only [auxOf, newmarkPL, Prod.snd_add, Pi.add_apply]
      apply Prod.ext
      · simp only [Prod.fst_add, Prod.snd_add, a2, add_zero]
        abel
      · simp only [Prod.fst_add, Prod.snd_add, a2, add_zero]
  · intro a b
    apply Prod.ext
    · funext k
      simp only [auxOf, Prod.fst_add, Pi.add_apply]
      split_ifs <;> rfl
    · funext i
      simp only [auxOf, Prod.snd_add, Pi.add_apply]
      split_ifs <;> rfl

/-- Anderson's criterion as it is in the code. -/
theorem conv_tow (n' : ℕ → ℕ) (tol rel : ℝ) (a b : State × State) :
    converged S n' tol rel (a.1 + all n S (u, 0), a.2 + all n S (u, 0)) (b.1 + all n S (u, 0), b.2 + all n S (u, 0)) =
      converged S n' tol rel a b := by
  have e : ∀ g : State × State, residues S n' (g.1 + all n S (u, 0), g.2 + all n S (u, 0)) = residues S n' g := by
    intro g
    simp only [residues, Prod.fst_add, Prod.snd_add, Pi.add_apply, add_sub_add_right_eq_sub]
  unfold converged
  simp only [e]

/-- What is asked of the coupled points, in calls of which the first begins at time `t`: the same motion, carried along
with `u`. -/
noncomputable def carried (u : V) : ℝ → List ((ℕ → V × V) × ℝ) → List ((ℕ → V × V) × ℝ)
  | _, [] => []
  | t, x :: l => (fun i => ((x.1 i).1 + t • u, (x.1 i).2 + u), x.2) :: carried u (t + max x.2 0) l

/-- A moment of the two simulations: the second is `t u` further and has the velocity `u` in addition. -/
structure Towed (u : V) (n : ℕ → ℕ) (S : System) (sc : Scheme ℝ) (s s' : Sim ℝ State Mem) : Prop where
  t : s'.t = s.t
  steps : s'.n = s.n
  r : s'.r 0 = s.r 0 + (all n S (0, u) + s.t • all n S (u, 0))
  rd : ∀ k, Drift.Known sc s.n k → s'.rd k = s.rd k + all n S (u, 0)
  base : Base n S s.m s'.m
  placed : Placed u S s.t s.m s'.m

/-- One call. -/
theorem call_tow (hw : World u n S S') (relax : ℕ → ℕ → ℝ) (conv : State × State → State × State → Bool) (fresh : ℕ ⊕ ℕ → Bool)
    (hc : ∀ a b, conv (a.1 + all n S (u, 0), a.2 + all n S (u, 0)) (b.1 + all n S (u, 0), b.2 + all n S (u, 0)) = conv a b)
    (sc : Scheme ℝ) (hsc : Drift.Tows sc) (dtM0 : ℝ) (fuel : ℕ) (x : (ℕ → V × V) × ℝ) (s s' e : Sim ℝ State Mem)
    (h : Towed u n S sc s s') (he : call S (auxOf relax conv fresh) sc dtM0 fuel s x = some e) (ho : ¬ e.m.bad) :
    e.t = s.t + max x.2 0 ∧
      ∃ e', call S' (auxOf relax conv fresh) sc dtM0 fuel s' (fun i => ((x.1 i).1 + s.t • u, (x.1 i).2 + u), x.2) = some e' ∧
        Towed u n S sc e e' := by
  have hI : InCall u n S s.t (initiate S x.1 s.m) (initiate S' (fun i => ((x.1 i).1 + s.t • u, (x.1 i).2 + u)) s'.m) := by
    refine ⟨⟨h.base.line, h.base.N, h.base.point, h.base.bad⟩, ?_⟩
    intro i hi hk
    simp only [initiate, hw.kind, if_pos hk]
  unfold call outerStep at he ⊢
  dsimp only at he ⊢
  by_cases hd : x.2 ≤ 0
  · rw [if_pos hd] at he
    rw [if_pos hd]
    dsimp only at he ⊢
    cases he
    refine ⟨by rw [max_eq_right hd, add_zero], _, rfl, h.t, h.steps, h.r, h.rd, hI.base, ?_⟩
    exact ⟨h.placed.t, h.placed.t', h.placed.line, h.placed.point⟩
  · rw [if_neg hd] at he
    rw [if_neg hd]
    split at he
    · rename_i e1 hs hr
      cases he
      have hm : Drift.Moment (all n S (0, u)) (all n S (u, 0)) (InCall u n S) s.t sc
          (next (machine S) { s with m := initiate S x.1 s.m })
          (next (machine S') { s' with m := initiate S' (fun i => ((x.1 i).1 + s.t • u, (x.1 i).2 + u)) s'.m }) := by
        refine ⟨h.t, rfl, by show s.t = s.t + (0 + 0); ring, h.steps, ?_, h.rd, hI⟩
        rintro k y ⟨rfl, rfl⟩
        show s'.r 0 = s.r 0 + (all n S (0, u) + (s.t + (0 + 0)) • all n S (u, 0))
        rw [add_zero, add_zero]
        exact h.r
      obtain ⟨e', h1, h2, h3, h4⟩ := Drift.tow_loop (machine_tow hw) (remembers S) (aux_tow relax conv fresh hc) sc hsc dtM0 fuel
        x.2 (not_le.1 hd).le [] hm e hs hr ho
      refine ⟨?_, e', by rw [h1], h2.t, h2.n, ?_, h2.rd, h2.m.base, (h4 (not_le.1 hd)).placed⟩
      · rw [h3, max_eq_left (not_le.1 hd).le]
        rfl
      · have := h2.r 0 0 ⟨rfl, rfl⟩
        rw [← h2.clock] at this
        exact this
    · cases he

/-- C107: a system that is carried through the water goes, call by call, through the same states as one that stays in the
opposite current: they are the same but for the distance travelled and the velocity. -/
theorem C107_simulation_partial (hw : World u n S S') (relax : ℕ → ℕ → ℝ) (conv : State × State → State × State → Bool)
    (fresh : ℕ ⊕ ℕ → Bool)
    (hc : ∀ a b, conv (a.1 + all n S (u, 0), a.2 + all n S (u, 0)) (b.1 + all n S (u, 0), b.2 + all n S (u, 0)) = conv a b)
    (sc : Scheme ℝ) (hsc : Drift.Tows sc) (dtM0 : ℝ) (fuel : ℕ) (calls : List ((ℕ → V × V) × ℝ)) (s s' e : Sim ℝ State Mem)
    (h : Towed u n S sc s s') (he : calls.foldlM (call S (auxOf relax conv fresh) sc dtM0 fuel) s = some e) (ho : ¬ e.m.bad) :
    ∃ e', (carried u s.t calls).foldlM (call S' (auxOf relax conv fresh) sc dtM0 fuel) s' = some e' ∧ Towed u n S sc e e' := by
  induction calls generalizing s s' with
  | nil =>
    cases he
    exact ⟨s', rfl, h⟩
  | cons x calls ih =>
    rw [List.foldlM_cons] at he
    cases h1 : call S (auxOf relax conv fresh) sc dtM0 fuel s x with
    | none => rw [h1] at he; cases he
    | some e1 =>
      rw [h1] at he
      have hk := Relate.moored_ok (remembers S) (fun x m h => h) _ sc dtM0 fuel calls e1 e he ho
      obtain ⟨ht, e2, h2, h3⟩ := call_tow hw relax conv fresh hc sc hsc dtM0 fuel x s s' e1 h h1 hk
      obtain ⟨e', h4, h5⟩ := ih _ _ h3 he
      refine ⟨e', ?_, h5⟩
      rw [ht] at h4
      show ((_ :: carried u (s.t + max x.2 0) calls).foldlM _ _) = _
      rw [List.foldlM_cons, h2]
      exact h4

/-- C107: what is seen of the two: places differ by the distance travelled, velocities by `u`; tensions, and the forces given
back for the coupled points, are the same. -/
theorem C107_seen_partial (hw : World u n S S') (relax : ℕ → ℕ → ℝ) (conv : State × State → State × State → Bool)
    (fresh : ℕ ⊕ ℕ → Bool)
    (hc : ∀ a b, conv (a.1 + all n S (u, 0), a.2 + all n S (u, 0)) (b.1 + all n S (u, 0), b.2 + all n S (u, 0)) = conv a b)
    (sc : Scheme ℝ) (hsc : Drift.Tows sc) (dtM0 : ℝ) (fuel : ℕ) (calls : List ((ℕ → V × V) × ℝ)) (s s' e e' : Sim ℝ State Mem)
    (h : Towed u n S sc s s') (he : calls.foldlM (call S (auxOf relax conv fresh) sc dtM0 fuel) s = some e) (ho : ¬ e.m.bad)
    (he' : (carried u s.t calls).foldlM (call S' (auxOf relax conv fresh) sc dtM0 fuel) s' = some e') :
    e'.t = e.t ∧
    (∀ k < S.nl, ∀ j ≤ n k, (e'.m.line k).r j = (e.m.line k).r j + e.t • u ∧ (e'.m.line k).rd j = (e.m.line k).rd j + u ∧
      getNodeTen (e'.m.line k) j = getNodeTen (e.m.line k) j ∧
      Fnet (e'.m.line k) (lineEnv S' e'.m k) j = Fnet (e.m.line k) (lineEnv S e.m k) j) ∧
    ∀ i < S.np, (e'.m.point i).r = (e.m.point i).r + e.t • u ∧ (e'.m.point i).rd = (e.m.point i).rd + u ∧
      reported S' e'.m i = reported S e.m i := by
  obtain ⟨e2, h1, h2⟩ := C107_simulation_partial hw relax conv fresh hc sc hsc dtM0 fuel calls s s' e h he ho
  rw [he'] at h1
  cases h1
  refine ⟨h2.t, fun k hk j hj => ?_, fun i hi => ?_⟩
  · have hl := h2.placed.line k hk
    have hN := h2.base.N k hk
    have hj' : j ≤ (e.m.line k).N := by rw [hN]; exact hj
    refine ⟨hl.r j hj', hl.rd j hj', ?_, (net_tow hw h2.placed hk hj').1⟩
    have hp := hl.N
    unfold getNodeTen
    rw [m_N hl]
    rw [if_neg (show ¬ j > (e.m.line k).N by omega), if_neg (show ¬ j > (e.m.line k).N by omega)]
    by_cases h0 : j = 0
    · rw [if_pos h0, if_pos h0, m_T hl (by omega), m_Td hl (by omega)]
    · by_cases h3 : j = (e.m.line k).N
      · rw [if_neg h0, if_neg h0, if_pos h3, if_pos h3, m_T hl (by omega), m_Td hl (by omega)]
      · rw [if_neg h0, if_neg h0, if_neg h3, if_neg h3, m_T hl (by omega), m_Td hl (by omega), m_T hl (by omega),
          m_Td hl (by omega)]
  · exact ⟨(h2.placed.point i hi).1, (h2.placed.point i hi).2, C107_force hw h2.base h2.placed hi⟩

/-! ## Starting -/

/-- The same, with the velocity `u` in addition. -/
def launched (u : V) (m : Mem) : Mem :=
  { m with
    line := fun k => { m.line k with rd := fun j => (m.line k).rd j + u }
    point := fun i => { m.point i with rd := (m.point i).rd + u } }

/-- At time 0, with the schemes that need no rates from before. -/
theorem launch (sc : Scheme ℝ) (hk : ∀ k, ¬ Drift.Known sc 0 k) (m : Mem) (ht : m.t = 0) (hN : ∀ k < S.nl, (m.line k).N = n k)
    (hp : ∀ k < S.nl, 1 ≤ n k) (r0 : State) :
    Towed u n S sc ⟨0, 0, fun _ => r0, fun _ => 0, 0, m⟩ ⟨0, 0, fun _ => r0 + all n S (0, u), fun _ => 0, 0, launched u m⟩ := by
  refine ⟨rfl, rfl, ?_, fun k h => absurd h (hk k), ⟨fun _ _ => rfl, hN, fun _ _ => rfl, Iff.rfl⟩, ht, ht, ?_, ?_⟩
  · simp
  · intro k h
    exact ⟨rfl, by rw [hN k h]; exact hp k h, fun j _ => by simp [launched], fun j _ => rfl⟩
  · intro i _
    exact ⟨by simp [launched], rfl⟩

/-! ## Examples -/

/-- A tug, a rope and a buoy, in a current `u`. -/
noncomputable def tow (u : V) : System where
  nl := 1
  np := 2
  kind i := if i = 0 then .COUPLED else .FREE
  att i := [(0, if i = 0 then .BOTTOM else .TOP)]
  sea := Rods.still
  kin _ _ := (0, u, 0, 0)

theorem tow_world (u v : V) (hu : u 2 = 0) (k : ℕ) (hk : 1 ≤ k) : World u (fun _ => k) (tow v) (tow (v + u)) := by
  refine ⟨rfl, rfl, rfl, rfl, rfl, hu, rfl, fun _ _ _ => rfl, fun _ _ => rfl, ?_, ?_, ?_, fun _ _ => hk⟩
  · intro i _
    simp only [tow]
    split_ifs <;> simp
  · intro k hk p
    have hk0 : k = 0 := by simpa [tow] using hk
    subst hk0
    cases p
    · exact ⟨1, by simp [tow], by simp [tow]⟩
    · exact ⟨0, by simp [tow], by simp [tow]⟩
  · intro i _ a ha
    simp only [tow, List.mem_singleton] at ha
    subst ha
    simp [tow]

/-- Towing for two seconds through still water (the force on the tug) is the same as lying for two seconds in the opposite
current. -/
example (u : V) (hu : u 2 = 0) (m : Mem) (ht : m.t = 0) (hN : (m.line 0).N = 20) (r0 : State) (dtM0 : ℝ) (fuel : ℕ)
    (relax : ℕ → ℕ → ℝ) (fresh : ℕ ⊕ ℕ → Bool) (e e' : Sim ℝ State Mem)
    (he : [((fun _ => (0, 0), 1) : (ℕ → V × V) × ℝ), (fun _ => (0, 0), 1)].foldlM
      (call (tow (-u)) (auxOf relax (fun _ _ => true) fresh) .rk4 dtM0 fuel) ⟨0, 0, fun _ => r0, fun _ => 0, 0, m⟩ = some e)
    (ho : ¬ e.m.bad)
    (he' : [((fun _ => (0, u), 1) : (ℕ → V × V) × ℝ), (fun _ => (u, u), 1)].foldlM
      (call (tow 0) (auxOf relax (fun _ _ => true) fresh) .rk4 dtM0 fuel)
      ⟨0, 0, fun _ => r0 + all (fun _ => 20) (tow (-u)) (0, u), fun _ => 0, 0, launched u m⟩ = some e') :
    reported (tow 0) e'.m 0 = reported (tow (-u)) e.m 0 := by
  have hw := tow_world u (-u) hu 20 (by omega)
  rw [neg_add_cancel] at hw
  have hs : Towed u (fun _ => 20) (tow (-u)) .rk4 ⟨0, 0, fun _ => r0, fun _ => 0, 0, m⟩
      ⟨0, 0, fun _ => r0 + all (fun _ => 20) (tow (-u)) (0, u), fun _ => 0, 0, launched u m⟩ :=
    launch .rk4 (fun _ h => h) m ht (fun k hk => by
      have hk0 : k = 0 := by simpa [tow] using hk
      rw [hk0, hN]) (fun _ _ => by omega) r0
  refine ((C107_seen_partial hw relax (fun _ _ => true) fresh (fun _ _ => rfl) .rk4 trivial dtM0 fuel _ _ _ e e' hs he ho ?_).2.2
    0 (by simp [tow])).2.2
  simpa [carried] using he'

/-! ## Where it fails -/

/-- A buoy that floats freely in a current `u`, without drag. -/
noncomputable def alone (u : V) : System where
  nl := 0
  np := 1
  kind _ := .FREE
  att _ := []
  sea := Rods.still
  kin _ _ := (0, u, 0, 0)

theorem alone_world (u : V) (hu : u 2 = 0) (n : ℕ → ℕ) : World u n (alone 0) (alone u) := by
  refine ⟨rfl, rfl, rfl, rfl, rfl, hu, rfl, fun _ _ _ => rfl, ?_, ?_, ?_, ?_, ?_⟩
  · intro t p
    simp [alone]
  · intro i _
    simp [alone]
  · intro k hk
    exact absurd hk (Nat.not_lt_zero _)
  · intro i _ a ha
    simp [alone] at ha
  · intro k hk
    exact absurd hk (Nat.not_lt_zero _)

/-- The buoy and nothing else. -/
noncomputable def dot (v : V) : Mem where
  t := 0
  line _ := ⟨0, 0, 0, 0, 0, 0, 0, 0, 0, 0, 0, none, none, none, false, fun _ => 0, fun _ => 0, fun _ => 0, fun _ => 0, .PINNED, .PINNED, 0, 0, fun _ => 0, false⟩
  point _ := ⟨1, 1 / 1000, 0, 0, 0, 0, v, 0, []⟩
  ves _ := 0
  bad := False
  edge := False

theorem alone_rate (u x v : V) (t tl : ℝ) : ((eval (alone u) (update (alone u) t tl (0, fun _ => (x, v)) (dot v))).1.2 0) = (v, 0) := by
  have h2 : asked (alone u) (update (alone u) t tl (0, fun _ => (x, v)) (dot v)) (.inl 0) := ⟨by simp [alone], rfl⟩
  simp only [eval]
  rw [if_pos h2]
  simp [pointRate, loaded, alone, update, fairlead, freeState, move, dot, Point.doRHS, pointLoop, Rods.still]

/-- Heun's scheme: in its first step a buoy that moves with the water is left behind by half the way. -/
theorem C107_heun_false (u : V) (hu : u 2 = 0) (ax : Aux ℝ State) (dt : ℝ) :
    World u (fun _ => 1) (alone 0) (alone u) ∧
    ((stepOf (machine (alone 0)) ax .heun dt ⟨0, 0, fun _ => (0, fun _ => (0, 0)), fun _ => 0, 0, dot 0⟩).r 0).2 0 = (0, 0) ∧
    ((stepOf (machine (alone u)) ax .heun dt ⟨0, 0, fun _ => (0, fun _ => (0, u)), fun _ => 0, 0, dot u⟩).r 0).2 0 =
      ((1 / 2 * dt) • u, u) := by
  refine ⟨alone_world u hu _, ?_, ?_⟩
  · simp only [stepOf, heun, upd, clc, setR, setRd, addT, fin, machine]
    have := alone_rate 0 0 0 0 0
    simp [Function.update_apply, this]
  · simp only [stepOf, heun, upd, clc, setR, setRd, addT, fin, machine]
    have := alone_rate u 0 u 0 0
    simp [Function.update_apply, this]

end MD.Towing
