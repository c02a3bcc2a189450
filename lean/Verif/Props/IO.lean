import Verif.Lemmas.Pack
import Mathlib.Data.Fin.VecNotation
import Mathlib.Tactic.FinCases
import Mathlib.Tactic.Linarith

/-!
# Properties C01-C05: snapshot files

The specification (what a file is, what a double is, which snapshots are
storable) is in `Verif.Spec.IO`; the model in `Verif.Model.IO` and
`Verif.Model.Snapshot`.
-/

set_option linter.unusedSimpArgs false

namespace MD.IO

/-! ## C03: numbers -/

/-- C03 for normal numbers: the word written is the IEEE-754 bit pattern and
unpacking it returns the number, whichever way the compiler evaluates the
rounding factor. -/
theorem C03_normal_roundtrip_partial (d : NormalDouble) (c : ℚ) (hc : FactorOk c) :
    pack754 2200 c (.fin d.value) = some d.bits ∧ unpack754 d.bits = d.value := by
  obtain ⟨neg, e, m, e1, e2, hm⟩ := d
  have hE : (e + 1023).toNat < 2 ^ 11 := by omega
  constructor
  · simp only [NormalDouble.value, NormalDouble.bits]
    rw [pack_of_norm _ m e neg c hc hm rfl (by omega), exp_word e (by omega) e2,
      word_or _ _ _ hE hm]
  · simp only [NormalDouble.value, NormalDouble.bits]
    have hpos : 0 < (e + 1023).toNat * 2 ^ 52 := by
      apply Nat.mul_pos _ (by positivity); omega
    rw [unpack_word _ _ _ (by cases neg <;> simp) hE hm (by omega)]
    have : (((e + 1023).toNat : ℤ) - 1023) = e := by omega
    rw [this]
    cases neg <;> simp

/-- C03 for zero. -/
theorem C03_zero_roundtrip (c : ℚ) :
    pack754 2200 c (.fin 0) = some 0 ∧ unpack754 0 = 0 := by
  simp [pack754, unpack754]

theorem huge_neg (P Q M e : ℚ) (neg : Bool) (hP : 2 ≤ P) (hPQ : P ≤ Q) (hM0 : 0 ≤ M) (hM1 : M < 1)
    (he : 0 < e) (he1 : e ≤ 1) :
    (1 + M) * Q * (-1) ≤ -P ∧ (1 + M) * Q * (-1) ≠ (if neg then -1 else 1) * ((1 + M) * e) := by
  have h1 : (1 + M) * Q * (-1) ≤ -P := by nlinarith
  refine ⟨h1, fun h => ?_⟩
  rw [h] at h1
  cases neg
  · simp only [Bool.false_eq_true, if_false] at h1
    nlinarith
  · simp only [if_true] at h1
    nlinarith

/-- C03 fails for subnormal numbers: every subnormal below `2^-1023` in absolute
value is read back as a huge negative number, at most `-2^974`. -/
theorem C03_subnormal_lost (d : SubnormalDouble) (hd : d.e < -1023) (c : ℚ) (hc : FactorOk c) :
    ∃ w, pack754 2200 c (.fin d.value) = some w ∧ unpack754 w ≤ -(2 : ℚ) ^ 974 ∧
      unpack754 w ≠ d.value := by
  obtain ⟨neg, e, m, e1, e2, hm, _⟩ := d
  simp only at hd
  set E := (e + 1023 + 2048).toNat with hEdef
  have hE : E < 2 ^ 11 := by omega
  have hE' : 974 ≤ (E : ℤ) - 1023 := by omega
  refine ⟨1 * 2 ^ 63 + (E * 2 ^ 52 + m), ?_, ?_⟩
  · simp only [SubnormalDouble.value]
    rw [pack_of_norm _ m e neg c hc hm rfl (by omega), exp_word_neg e e1 hd]
    have h1 : 2 ^ 63 + E * 2 ^ 52 ||| m = (1 <<< 63) ||| (E * 2 ^ 52 ||| m) := by
      have a : 2 ^ 63 + E * 2 ^ 52 = (1 <<< 63) ||| (E * 2 ^ 52) := by
        have := word_or 1 E 0 hE (by norm_num)
        simp only [Nat.or_zero, Nat.add_zero, Nat.one_mul] at this
        rw [this]
      rw [a, Nat.or_assoc]
    rw [h1]
    cases neg
    · simp only [Bool.false_eq_true, if_false, Nat.zero_shiftLeft, Nat.zero_or]
      rw [word_or 1 E m hE hm]
    · simp only [if_true]
      rw [← Nat.or_assoc, Nat.or_self, word_or 1 E m hE hm]
  · rw [unpack_word 1 E m (by norm_num) hE hm (by omega)]
    have hm0 : (0 : ℚ) ≤ (m : ℚ) / 2 ^ 52 := by positivity
    have hp : (2 : ℚ) ^ (974 : ℤ) ≤ 2 ^ ((E : ℤ) - 1023) :=
      zpow_le_zpow_right₀ (by norm_num) hE'
    have hp0 : (0 : ℚ) < 2 ^ ((E : ℤ) - 1023) := by positivity
    simp only [if_true]
    have hp' : (2 : ℚ) ^ 974 ≤ 2 ^ ((E : ℤ) - 1023) := by exact_mod_cast hp
    have hm' : (m : ℚ) < 2 ^ 52 := by exact_mod_cast hm
    have hm1 : (m : ℚ) / 2 ^ 52 < 1 := by rw [div_lt_one (by positivity)]; exact hm'
    have he0 : (2 : ℚ) ^ e ≤ 2 ^ (0 : ℤ) := zpow_le_zpow_right₀ (by norm_num) (by omega)
    rw [zpow_zero] at he0
    have hbig : (2 : ℚ) ^ 1 ≤ 2 ^ 974 := pow_le_pow_right₀ (by norm_num) (by omega)
    rw [pow_one] at hbig
    exact huge_neg _ _ _ _ _ hbig hp' hm0 hm1 (by positivity) he0

/-- The smallest positive double, `2^-1074`. -/
def leastDouble : SubnormalDouble where
  neg := false
  e := -1074
  m := 0
  e_lo := by norm_num
  e_hi := by norm_num
  m_lt := by norm_num
  m_dvd := dvd_zero _

/-- C03 as stated (every finite double) is false. -/
theorem C03_all_finite_false : ¬ ∀ d : SubnormalDouble, ∀ c, FactorOk c →
    ∃ w, pack754 2200 c (.fin d.value) = some w ∧ unpack754 w = d.value := by
  intro h
  obtain ⟨w, hw, hu⟩ := h leastDouble (2 ^ 52) ⟨le_refl _, by norm_num⟩
  obtain ⟨w', hw', _, hne⟩ :=
    C03_subnormal_lost leastDouble (by norm_num [leastDouble]) (2 ^ 52) ⟨le_refl _, by norm_num⟩
  rw [hw] at hw'
  obtain rfl := Option.some.inj hw'
  exact hne hu

/-- Saving an infinity never returns: whatever the number of iterations granted
to the first loop of the packing, it is not enough. -/
theorem C03_infinity_hangs (fuel : ℕ) (c : ℚ) (neg : Bool) :
    pack754 fuel c (.inf neg) = none := by
  have : normDownInf fuel = none := by
    induction fuel with
    | zero => rfl
    | succ n ih => exact ih
  simp [pack754, this]

/-- non-vacuity: `-1.5 = -(1 + 2^51/2^52) * 2^0` is a normal double -/
example : ∃ d : NormalDouble, d.value = -3 / 2 ∧ d.bits = 0xBFF8000000000000 :=
  ⟨⟨true, 0, 2 ^ 51, by norm_num, by norm_num, by norm_num⟩, by
    norm_num [NormalDouble.value], by simp [NormalDouble.bits]⟩
/-- both evaluations of the factor are covered -/
example : FactorOk (2 ^ 52) ∧ FactorOk (2 ^ 52 + 1 / 2) := by
  constructor <;> constructor <;> norm_num

/-! ## C04: objects -/

/-- number of values of a word bounds the bit pattern -/
theorem NormalDouble.bits_lt (d : NormalDouble) : d.bits < W64 := by
  obtain ⟨neg, e, m, e1, e2, hm⟩ := d
  simp only [NormalDouble.bits, W64]
  cases neg <;> simp <;> omega

theorem storable_word (c : ℚ) (hc : FactorOk c) (x : ℚ) (hx : Storable x) :
    ∃ w, w < W64 ∧ pack754 2200 c (.fin x) = some w ∧ unpack754 w = x := by
  rcases hx with rfl | ⟨d, rfl⟩
  · exact ⟨0, Nat.two_pow_pos 64, C03_zero_roundtrip c⟩
  · exact ⟨d.bits, d.bits_lt, C03_normal_roundtrip_partial d c hc⟩

/-- A storable number is read back exactly. -/
theorem C04_real_law (g : Cfg) (hc : FactorOk g.c) (x : ℚ) (hx : Storable x) :
    Law (serReal g) (rdReal g) x := by
  intro rest
  obtain ⟨w, hw, hp, hu⟩ := storable_word g.c hc x hx
  simp only [serReal, rdReal, List.cons_append, List.nil_append, deser_ser]
  rw [hp, Option.getD_some, mkWord]
  dsimp only
  rw [Nat.mod_eq_of_lt hw, hu]

theorem bind_law {α β : Type} {ser : α → List Word} {rd : Rd α} {a : α} (h : Law ser rd a)
    (f : α → Rd β) (rest : List Word) : Rd.bind rd f (ser a ++ rest) = f a rest := by
  simp only [Rd.bind, h rest]

theorem bind_rep {α β : Type} {ser : α → List Word} {rd : Rd α} {l : List α} {n : ℕ}
    (hn : l.length = n) (h : ∀ a ∈ l, Law ser rd a)
    (f : List α → Rd β) (rest : List Word) :
    Rd.bind (rdRep rd n) f (l.flatMap ser ++ rest) = f l rest := by
  subst hn
  simp only [Rd.bind, law_rep h rest]

section
variable {g : Cfg} (hc : FactorOk g.c)
include hc

theorem law_v {n : ℕ} {v : Fin n → ℚ} (h : okV v) : Law (serFn (serReal g)) (rdFn (rdReal g) n) v :=
  law_fn fun i => C04_real_law g hc _ (h i)

theorem law_m {n k : ℕ} {v : Fin n → Fin k → ℚ} (h : okM v) :
    Law (serFn (serFn (serReal g))) (rdFn (rdFn (rdReal g) k) n) v :=
  law_fn fun i => law_v hc (h i)

theorem law_xq {x : XYZQuat} (h : okX x) : Law (serXQ g) (rdXQ g) x := by
  intro rest
  simp only [serXQ, rdXQ, Rd.bind, Rd.pure, List.append_assoc, serV3, rdV3]
  rw [law_v hc h.1]
  simp only
  rw [law_v hc h.2]

theorem law_reals {l : List ℚ} (h : okL Storable l) : Law (serReals g) (rdReals g) l :=
  law_vec h.1 fun a ha => C04_real_law g hc a (h.2 a ha)

theorem law_vecs {l : List Vec} (h : okL okV l) : Law (serVecs g) (rdVecs g) l :=
  law_vec h.1 fun _ ha => law_v hc (h.2 _ ha)

theorem law_mats {l : List Mat} (h : okL okM l) : Law (serMats g) (rdMats g) l :=
  law_vec h.1 fun _ ha => law_m hc (h.2 _ ha)

theorem law_v3 {v : Vec} (h : okV v) : Law (serV3 g) (rdV3 g) v := law_v hc h
theorem law_v6 {v : Vec6} (h : okV v) : Law (serV6 g) (rdV6 g) v := law_v hc h
theorem law_m3 {v : Mat} (h : okM v) : Law (serM3 g) (rdM3 g) v := law_m hc h
theorem law_m6 {v : Mat6} (h : okM v) : Law (serM6 g) (rdM6 g) v := law_m hc h
theorem law_real {x : ℚ} (h : Storable x) : Law (serReal g) (rdReal g) x := C04_real_law g hc x h

attribute [local irreducible] serReal serVecs serReals serMats serV3 serV6 serM3 serM6 serXQ

/-- C04, lines: reading what a line wrote, followed by anything, gives back every
quantity written and stops at the first following word. -/
theorem C04_line {x : LineS} (h : x.Ok) (rest : List Word) :
    LineS.rd' g (x.ser g ++ rest) = some (x, rest) := by
  unfold LineS.ser
  repeat rw [List.append_assoc]
  unfold LineS.rd'
  refine (bind_law (law_real hc h.t) _ _).trans ?_
  refine (bind_law (law_vecs hc h.r) _ _).trans ?_
  refine (bind_law (law_vecs hc h.rd) _ _).trans ?_
  refine (bind_law (law_vecs hc h.q) _ _).trans ?_
  refine (bind_law (law_vecs hc h.qs) _ _).trans ?_
  refine (bind_law (law_reals hc h.l) _ _).trans ?_
  refine (bind_law (law_reals hc h.lstr) _ _).trans ?_
  refine (bind_law (law_reals hc h.ldstr) _ _).trans ?_
  refine (bind_law (law_reals hc h.Kurv) _ _).trans ?_
  refine (bind_law (law_mats hc h.M) _ _).trans ?_
  refine (bind_law (law_reals hc h.V) _ _).trans ?_
  refine (bind_law (law_vecs hc h.T) _ _).trans ?_
  refine (bind_law (law_vecs hc h.Td) _ _).trans ?_
  refine (bind_law (law_vecs hc h.Bs) _ _).trans ?_
  refine (bind_law (law_vecs hc h.W) _ _).trans ?_
  refine (bind_law (law_vecs hc h.Dp) _ _).trans ?_
  refine (bind_law (law_vecs hc h.Dq) _ _).trans ?_
  refine (bind_law (law_vecs hc h.Ap) _ _).trans ?_
  refine (bind_law (law_vecs hc h.Aq) _ _).trans ?_
  refine (bind_law (law_vecs hc h.B) _ _).trans ?_
  refine (bind_law (law_vecs hc h.Fnet) _ _).trans ?_
  refine (bind_law (law_reals hc h.F) _ _).trans ?_
  rfl

/-- C04, rods -/
theorem C04_rod {x : RodS} (h : x.Ok) (rest : List Word) :
    RodS.rd' g (x.ser g ++ rest) = some (x, rest) := by
  unfold RodS.ser
  repeat rw [List.append_assoc]
  unfold RodS.rd'
  refine (bind_law (law_real hc h.t) _ _).trans ?_
  refine (bind_law (law_xq hc h.r7) _ _).trans ?_
  refine (bind_law (law_v6 hc h.v6) _ _).trans ?_
  refine (bind_law (law_vecs hc h.r) _ _).trans ?_
  refine (bind_law (law_vecs hc h.rd) _ _).trans ?_
  refine (bind_law (law_v3 hc h.q) _ _).trans ?_
  refine (bind_law (law_reals hc h.l) _ _).trans ?_
  refine (bind_law (law_mats hc h.M) _ _).trans ?_
  refine (bind_law (law_reals hc h.V) _ _).trans ?_
  refine (bind_law (law_v3 hc h.FextA) _ _).trans ?_
  refine (bind_law (law_v3 hc h.FextB) _ _).trans ?_
  refine (bind_law (law_v3 hc h.Mext) _ _).trans ?_
  refine (bind_law (law_v6 hc h.F6net) _ _).trans ?_
  refine (bind_law (law_m6 hc h.M6net) _ _).trans ?_
  refine (bind_law (law_vecs hc h.W) _ _).trans ?_
  refine (bind_law (law_vecs hc h.Bo) _ _).trans ?_
  refine (bind_law (law_vecs hc h.Pd) _ _).trans ?_
  refine (bind_law (law_vecs hc h.Dp) _ _).trans ?_
  refine (bind_law (law_vecs hc h.Dq) _ _).trans ?_
  refine (bind_law (law_vecs hc h.Ap) _ _).trans ?_
  refine (bind_law (law_vecs hc h.Aq) _ _).trans ?_
  refine (bind_law (law_vecs hc h.B) _ _).trans ?_
  refine (bind_law (law_vecs hc h.Fnet) _ _).trans ?_
  refine (bind_law (law_reals hc h.VOF) _ _).trans ?_
  refine (bind_law (law_real hc h.h0) _ _).trans ?_
  refine (bind_law (law_xq hc h.r_ves) _ _).trans ?_
  refine (bind_law (law_v6 hc h.rd_ves) _ _).trans ?_
  rfl

/-- C04, points -/
theorem C04_point {x : PointS} (h : x.Ok) (rest : List Word) :
    PointS.rd' g (x.ser g ++ rest) = some (x, rest) := by
  simp only [PointS.ser, List.append_assoc]
  unfold PointS.rd'
  refine (bind_law (law_v3 hc h.r) _ _).trans ?_
  refine (bind_law (law_v3 hc h.rd) _ _).trans ?_
  refine (bind_law (law_v3 hc h.r_ves) _ _).trans ?_
  refine (bind_law (law_v3 hc h.rd_ves) _ _).trans ?_
  refine (bind_law (law_v3 hc h.Fnet) _ _).trans ?_
  refine (bind_law (law_m3 hc h.M) _ _).trans ?_
  rfl

/-- C04, bodies -/
theorem C04_body {x : BodyS} (h : x.Ok) (rest : List Word) :
    BodyS.rd' g (x.ser g ++ rest) = some (x, rest) := by
  simp only [BodyS.ser, List.append_assoc]
  unfold BodyS.rd'
  refine (bind_law (law_xq hc h.r7) _ _).trans ?_
  refine (bind_law (law_v6 hc h.v6) _ _).trans ?_
  refine (bind_law (law_xq hc h.r_ves) _ _).trans ?_
  refine (bind_law (law_v6 hc h.rd_ves) _ _).trans ?_
  refine (bind_law (law_v6 hc h.F6net) _ _).trans ?_
  refine (bind_law (law_m6 hc h.M) _ _).trans ?_
  refine (bind_law (law_m3 hc h.OrMat) _ _).trans ?_
  rfl

theorem law_xv {x : XYZQuat × Vec6} (h : okX x.1 ∧ okV x.2) : Law (serXV g) (rdXV g) x := by
  intro rest
  simp only [serXV, List.append_assoc]
  unfold rdXV
  refine (bind_law (law_xq hc h.1) _ _).trans ?_
  refine (bind_law (law_v6 hc h.2) _ _).trans ?_
  rfl

theorem law_pv {x : Vec × Vec} (h : okV x.1 ∧ okV x.2) : Law (serPV g) (rdPV g) x := by
  intro rest
  simp only [serPV, List.append_assoc]
  unfold rdPV
  refine (bind_law (law_v3 hc h.1) _ _).trans ?_
  refine (bind_law (law_v3 hc h.2) _ _).trans ?_
  rfl

theorem law_lv {x : List Vec × List Vec} (h : okL okV x.1 ∧ okL okV x.2) :
    Law (serLV g) (rdLV g) x := by
  intro rest
  simp only [serLV, List.append_assoc]
  unfold rdLV
  refine (bind_law (law_vecs hc h.1) _ _).trans ?_
  refine (bind_law (law_vecs hc h.2) _ _).trans ?_
  rfl

/-- C04, one integrator state -/
theorem C04_state {c : Counts} {s : StateS} (h : s.Ok c) (rest : List Word) :
    StateS.rd' g c (s.ser g ++ rest) = some (s, rest) := by
  simp only [StateS.ser, List.append_assoc]
  unfold StateS.rd'
  refine (bind_rep h.nb (fun a ha => law_xv hc (h.bodies a ha)) _ _).trans ?_
  refine (bind_rep h.nr (fun a ha => law_xv hc (h.rods a ha)) _ _).trans ?_
  refine (bind_rep h.np (fun a ha => law_pv hc (h.points a ha)) _ _).trans ?_
  refine (bind_rep h.nl (fun a ha => law_lv hc (h.lines a ha)) _ _).trans ?_
  rfl

/-- C04, time schemes -/
theorem C04_integrator {c : Counts} {s : IntegS} (h : s.Ok c) (rest : List Word) :
    IntegS.rd' g c s.r.length s.rd.length s.nSteps.isSome (s.ser g ++ rest) = some (s, rest) := by
  simp only [IntegS.ser, List.append_assoc]
  unfold IntegS.rd'
  refine (bind_law (law_real hc h.t) _ _).trans ?_
  refine (bind_rep rfl (fun a ha => C04_state hc (h.r a ha)) _ _).trans ?_
  refine (bind_rep rfl (fun a ha => C04_state hc (h.rd a ha)) _ _).trans ?_
  obtain ⟨t, r, rd, n⟩ := s
  cases n with
  | none => simp [Rd.pure]
  | some n =>
    have hn : n < 2 ^ 32 := h.n n rfl
    simp only [Option.isSome_some, if_true, Rd.bind, Rd.pure]
    rw [rdNat_ser g n (by unfold W64; omega)]
    simp only
    rw [Nat.mod_eq_of_lt hn]

/-- C04, the whole system, whatever the numbers of objects, nodes and
integrator stages. -/
theorem C04_system {s : SysS} (h : s.Ok) (rest : List Word) :
    SysS.rd' g s.counts s.integ.r.length s.integ.rd.length s.integ.nSteps.isSome
      (s.ser g ++ rest) = some (s, rest) := by
  have hn : s.npW < W64 := by have := h.npW; unfold W64; omega
  simp only [SysS.ser, List.append_assoc]
  unfold SysS.rd'
  refine (bind_law (a := s.npW) (ser := serNat g) (fun rest => rdNat_ser g _ hn rest) _ _).trans ?_
  refine (bind_law (fun rest => C04_integrator hc h.integ rest) _ _).trans ?_
  refine (bind_rep rfl (fun a ha => C04_body hc (h.bodies a ha)) _ _).trans ?_
  refine (bind_rep rfl (fun a ha => C04_rod hc (h.rods a ha)) _ _).trans ?_
  refine (bind_rep rfl (fun a ha => C04_point hc (h.points a ha)) _ _).trans ?_
  refine (bind_rep rfl (fun a ha => C04_line hc (h.lines a ha)) _ _).trans ?_
  simp only [Rd.pure]
  rw [Nat.mod_eq_of_lt h.npW]
end

/-! ## C01: files -/

theorem length_save (be : Bool) (v : Version) (data : List Word) :
    (save be v data).length = 17 + 8 * data.length := by
  simp [save, magic, flatMap_memBytes_length]
  omega

theorem save_drop9 (be : Bool) (v : Version) (data : List Word) :
    ((save be v data).drop 9) = memBytes be (mkWord data.length) ++ data.flatMap (memBytes be) := by
  simp [save, magic]

theorem save_drop17 (be : Bool) (v : Version) (data : List Word) :
    ((save be v data).drop 17) = data.flatMap (memBytes be) := by
  have : (save be v data).drop 17 = ((save be v data).drop 9).drop 8 := by simp
  rw [this, save_drop9, List.drop_append_of_le_length (by simp)]
  simp

theorem versionOk_iff (w : Version) (M m : Byte) : versionOk w M m = true ↔ VersionGE M m w := by
  simp only [versionOk, VersionGE, Bool.not_eq_true', Bool.or_eq_false_iff, Bool.and_eq_false_iff,
    decide_eq_false_iff_not, Fin.lt_def, Fin.le_def, Fin.ext_iff]
  omega

theorem mul8_mod (c : ℕ) : c * 8 % W64 = 8 * (c * 8 % W64 / 8) := by
  unfold W64; omega

/-- C01, layout of the file. -/
theorem C01_layout (be : Bool) (v : Version) (data : List Word) (h : data.length < 2 ^ 64) :
    ∃ count : Word, count.val = data.length ∧
      FileLayout be v.major v.minor count data (save be v data) :=
  ⟨mkWord data.length, Nat.mod_eq_of_lt h, rfl⟩

/-- C01, the file written is accepted by the library that wrote it and exactly the
same words are handed over, if and only if its version is at least `x.2` with
`x ≥ 2` (the released version of this commit is 2.3). -/
theorem C01_roundtrip (be : Bool) (v : Version) (data : List Word)
    (h : data.length < 2 ^ 61) (hv : 2 ≤ v.major.val ∧ 2 ≤ v.minor.val) :
    loadHeader be v (save be v data) = .ok (mkWord data.length, data) := by
  have hlen := length_save be v data
  have hW : W64 = 8 * 2 ^ 61 := by decide
  unfold loadHeader
  rw [if_neg (by omega)]
  have hm : magicOk (save be v data) = true := by
    unfold magicOk
    rw [decide_eq_true_iff]
    simp [save, magic]
  have hmaj : (save be v data).getD 7 0 = v.major := by simp [save, magic]
  have hmin : (save be v data).getD 8 0 = v.minor := by simp [save, magic]
  rw [hm, hmaj, hmin]
  have hver : versionOk (minVersion v) v.major v.minor = true := by
    rw [versionOk_iff, minVersion, if_pos hv.1, if_pos hv.2]
    right; exact ⟨rfl, le_refl _⟩
  rw [hver]
  simp only [Bool.not_true, Bool.false_eq_true, if_false]
  rw [save_drop9, List.take_append_of_le_length (by simp),
    List.take_of_length_le (by simp), ofMem_memBytes, save_drop17, hlen]
  have hcount : (mkWord data.length).val = data.length := Nat.mod_eq_of_lt (by omega)
  rw [hcount]
  have e1 : data.length * 8 % W64 = 8 * data.length := by
    rw [Nat.mod_eq_of_lt (by omega)]; omega
  have e2 : (17 + 8 * data.length - 17) % W64 = 8 * data.length := by
    rw [Nat.mod_eq_of_lt (by omega)]; omega
  rw [e1, e2, if_neg (by simp)]
  have := chunks_flatMap be data []
  rw [List.append_nil] at this
  rw [Nat.mul_div_cancel_left _ (by norm_num), this]

/-- A library whose version is older than 2.0, or `x.0`, `x.1` with `x ≥ 2` (the
next major release, or a build that does not define the version numbers, which
is then 0.0), rejects its own files. -/
theorem C01_own_file_rejected (be : Bool) (v : Version) (data : List Word)
    (hv : ¬ (2 ≤ v.major.val ∧ 2 ≤ v.minor.val)) :
    loadHeader be v (save be v data) = .error .inputFile := by
  have hlen := length_save be v data
  unfold loadHeader
  rw [if_neg (by omega)]
  have hm : magicOk (save be v data) = true := by
    unfold magicOk
    rw [decide_eq_true_iff]
    simp [save, magic]
  have hmaj : (save be v data).getD 7 0 = v.major := by simp [save, magic]
  have hmin : (save be v data).getD 8 0 = v.minor := by simp [save, magic]
  rw [hm, hmaj, hmin]
  have hver : versionOk (minVersion v) v.major v.minor = false := by
    rw [Bool.eq_false_iff, ne_eq, versionOk_iff, minVersion]
    simp only [VersionGE]
    have h2 : ((2 : Byte) : Fin 256).val = 2 := rfl
    split_ifs with h1 h3 <;> simp only [Fin.lt_def, Fin.le_def, Fin.ext_iff, h2] <;> omega
  rw [hver]
  simp

/-- C01 end to end: a storable system saved and loaded by a system with the same
objects and time scheme is restored exactly, whatever the previous state of the
latter. -/
theorem C01_save_load_system (g : Cfg) (hc : FactorOk g.c) (v : Version)
    (hv : 2 ≤ v.major.val ∧ 2 ≤ v.minor.val) (s old : SysS) (h : s.Ok)
    (hlen : (s.ser g).length < 2 ^ 61) :
    load g.be v (SysS.rd' g s.counts s.integ.r.length s.integ.rd.length s.integ.nSteps.isSome)
      old (save g.be v (s.ser g)) = .ok s := by
  unfold load
  rw [C01_roundtrip g.be v _ hlen hv]
  have hlaw := C04_system hc h []
  rw [List.append_nil] at hlaw
  simp only [hlaw]
  have hcount : (mkWord (s.ser g).length).val = (s.ser g).length := by
    apply Nat.mod_eq_of_lt
    have : W64 = 8 * 2 ^ 61 := by decide
    omega
  rw [hcount, if_pos]
  rw [Nat.mod_eq_of_lt]
  · simp
  · have : W64 = 8 * 2 ^ 61 := by decide
    omega

/-- The word count is stored in the byte order of the machine, unlike the words:
the nonempty file of a one-word snapshot written by a little endian machine is
rejected by a big endian one, and vice versa. -/
theorem C01_not_portable (be : Bool) (w : Word) :
    loadHeader (!be) ⟨2, 3⟩ (save be ⟨2, 3⟩ [w]) = .error .input := by
  have hlen := length_save be ⟨2, 3⟩ [w]
  have hl : ([w] : List Word).length = 1 := rfl
  rw [hl] at hlen
  unfold loadHeader
  rw [if_neg (by omega)]
  have hm : magicOk (save be ⟨2, 3⟩ [w]) = true := by
    unfold magicOk; rw [decide_eq_true_iff]; simp [save, magic]
  have hmaj : (save be ⟨2, 3⟩ [w]).getD 7 0 = 2 := by simp [save, magic]
  have hmin : (save be ⟨2, 3⟩ [w]).getD 8 0 = 3 := by simp [save, magic]
  rw [hm, hmaj, hmin]
  have hver : versionOk (minVersion ⟨2, 3⟩) 2 3 = true := by decide
  rw [hver]
  simp only [Bool.not_true, Bool.false_eq_true, if_false]
  rw [save_drop9, List.take_append_of_le_length (by simp), List.take_of_length_le (by simp), hlen]
  have hne : (ofMem (!be) (memBytes be (mkWord ([w] : List Word).length))).val * 8 % W64
      ≠ (17 + 8 * 1 - 17) % W64 := by
    rw [hl]; cases be <;> decide
  rw [if_pos hne]

/-- non-vacuity of C01: version 2.3 and two words -/
example : loadHeader false ⟨2, 3⟩ (save false ⟨2, 3⟩ [mkWord 7, mkWord 9])
    = .ok (mkWord 2, [mkWord 7, mkWord 9]) :=
  C01_roundtrip false ⟨2, 3⟩ [mkWord 7, mkWord 9] (by norm_num) (by decide)

/-- a zero vector is storable -/
theorem okV_zero {n : ℕ} : okV (fun _ : Fin n => 0) := fun _ => Or.inl rfl

/-- non-vacuity of C04/C01: a system with one point at `(1, 0, 0)` and an Euler
integrator (one state and one derivative). -/
example : (⟨3, ⟨0, [⟨[], [], [(![1, 0, 0], fun _ => 0)], []⟩],
    [⟨[], [], [(fun _ => 0, fun _ => 0)], []⟩], none⟩, [], [],
    [⟨![1, 0, 0], fun _ => 0, fun _ => 0, fun _ => 0, fun _ => 0, fun _ _ => 0⟩], []⟩ : SysS).Ok := by
  have one : Storable 1 := Or.inr ⟨⟨false, 0, 0, by norm_num, by norm_num, by norm_num⟩, by
    norm_num [NormalDouble.value]⟩
  have v1 : okV ![(1 : ℚ), 0, 0] := by
    intro i
    fin_cases i
    · exact one
    · exact Or.inl rfl
    · exact Or.inl rfl
  refine ⟨by norm_num, ⟨Or.inl rfl, ?_, ?_, by simp⟩, by simp, by simp, ?_, by simp⟩
  · intro a ha
    simp only [List.mem_singleton] at ha
    subst ha
    refine ⟨rfl, rfl, rfl, rfl, by simp, by simp, ?_, by simp⟩
    intro p hp
    simp only [List.mem_singleton] at hp
    subst hp
    exact ⟨v1, okV_zero⟩
  · intro a ha
    simp only [List.mem_singleton] at ha
    subst ha
    refine ⟨rfl, rfl, rfl, rfl, by simp, by simp, ?_, by simp⟩
    intro p hp
    simp only [List.mem_singleton] at hp
    subst hp
    exact ⟨okV_zero, okV_zero⟩
  · intro p hp
    simp only [List.mem_singleton] at hp
    subst hp
    exact ⟨v1, okV_zero, okV_zero, okV_zero, okV_zero, fun _ => okV_zero⟩

/-! ## C02: malformed files -/

/-- C02, the versions that a library accepts, in numbers: none before 2.2, none before its own; and since the
minor version is raised to 2 on its own, of a library M.0 or M.1 none before M.2. -/
theorem C02_versions (v : Version) (M m : Byte) :
    VersionGE M m (minVersion v) ↔
      max v.major.val 2 < M.val ∨
        max v.major.val 2 = M.val ∧ (if v.major.val < 2 then 2 else max v.minor.val 2) ≤ m.val := by
  have h2 : ((2 : Byte) : Fin 256).val = 2 := rfl
  unfold minVersion VersionGE
  split_ifs with h1 h3 h4 h4 h5 <;> simp only [Fin.lt_def, Fin.le_def, Fin.ext_iff, h2] <;> omega

/-- C02, exact characterisation of the accepted files: magic, acceptable version,
declared number of words equal, *modulo `2^61`*, to the number of words that
follow.  (`file.length < 2^64`: sizes of files are 64-bit numbers.) -/
theorem C02_accept_iff (be : Bool) (v : Version) (file : List Byte) (hf : file.length < 2 ^ 64)
    (count : Word) (words : List Word) :
    loadHeader be v file = .ok (count, words) ↔
      ∃ M m, FileLayout be M m count words file ∧ VersionGE M m (minVersion v) ∧
        count.val * 8 % 2 ^ 64 = 8 * words.length := by
  have hW : W64 = 2 ^ 64 := rfl
  constructor
  · intro h
    unfold loadHeader at h
    by_cases h17 : file.length < 17
    · rw [if_pos h17] at h; cases h
    rw [if_neg h17] at h
    cases hmg : magicOk file
    · rw [hmg] at h; simp at h
    rw [hmg] at h
    cases hvo : versionOk (minVersion v) (file.getD 7 0) (file.getD 8 0)
    · rw [hvo] at h; simp at h
    rw [hvo] at h
    simp only [Bool.not_true, Bool.false_eq_true, if_false] at h
    by_cases hsz : (ofMem be ((file.drop 9).take 8)).val * 8 % W64 ≠ (file.length - 17) % W64
    · rw [if_pos hsz] at h; cases h
    rw [if_neg hsz] at h
    have hsz' := not_not.mp hsz
    simp only [Except.ok.injEq, Prod.mk.injEq] at h
    obtain ⟨rfl, rfl⟩ := h
    have hsmall : (file.length - 17) % W64 = file.length - 17 := by
      rw [hW, Nat.mod_eq_of_lt (by omega)]
    rw [hsmall] at hsz'
    set cnt := ofMem be ((file.drop 9).take 8) with hcnt
    have hdvd : file.length - 17 = 8 * (cnt.val * 8 % W64 / 8) := by
      have := mul8_mod cnt.val
      omega
    have hck := chunks_spec be (cnt.val * 8 % W64 / 8) (file.drop 17) (by
      rw [List.length_drop]; exact hdvd)
    refine ⟨file.getD 7 0, file.getD 8 0, ?_, (versionOk_iff _ _ _).mp hvo, ?_⟩
    · unfold FileLayout
      rw [hck.1, hcnt, memBytes_ofMem be _ (by rw [List.length_take, List.length_drop]; omega)]
      have hmg' : file.take 7 = magic := by
        unfold magicOk at hmg; exact of_decide_eq_true hmg
      have e1 : file = file.take 7 ++ file.drop 7 := (List.take_append_drop 7 file).symm
      have e2 : file.drop 7 = file.getD 7 0 :: file.drop 8 := by
        rw [List.getD_eq_getElem _ _ (by omega)]
        exact List.drop_eq_getElem_cons (by omega)
      have e3 : file.drop 8 = file.getD 8 0 :: file.drop 9 := by
        rw [List.getD_eq_getElem _ _ (by omega)]
        exact List.drop_eq_getElem_cons (by omega)
      have e4 : file.drop 9 = (file.drop 9).take 8 ++ file.drop 17 := by
        conv_lhs => rw [← List.take_append_drop 8 (file.drop 9)]
        rw [List.drop_drop]
      conv_lhs => rw [e1, hmg', e2, e3, e4]
      simp [magic]
    · rw [hck.2, ← hdvd, ← hsz']; rfl
  · rintro ⟨M, m, hl, hv, hcnt⟩
    unfold FileLayout at hl
    have hlen : file.length = 17 + 8 * words.length := by
      rw [hl]; simp [flatMap_memBytes_length]; omega
    have hmg : magicOk file = true := by
      unfold magicOk; rw [decide_eq_true_iff, hl]; simp [magic]
    have h7 : file.getD 7 0 = M := by rw [hl]; simp
    have h8 : file.getD 8 0 = m := by rw [hl]; simp
    have hd9 : file.drop 9 = memBytes be count ++ words.flatMap (memBytes be) := by
      rw [hl]; simp
    have hd17 : file.drop 17 = words.flatMap (memBytes be) := by
      have : file.drop 17 = (file.drop 9).drop 8 := by simp
      rw [this, hd9, List.drop_append_of_le_length (by simp)]
      simp
    unfold loadHeader
    rw [if_neg (by omega), hmg, h7, h8, (versionOk_iff _ _ _).mpr hv]
    simp only [Bool.not_true, Bool.false_eq_true, if_false]
    rw [hd9, List.take_append_of_le_length (by simp), List.take_of_length_le (by simp),
      ofMem_memBytes, hd17, hlen]
    rw [← hW] at hcnt
    have e2 : (17 + 8 * words.length - 17) % W64 = 8 * words.length := by
      rw [hW, Nat.mod_eq_of_lt (by omega)]; omega
    rw [hcnt, e2, if_neg (by simp)]
    have := chunks_flatMap be words []
    rw [List.append_nil] at this
    rw [Nat.mul_div_cancel_left _ (by norm_num), this]

/-- C02 restricted to files that declare less than `2^61` words (every file that
can exist on a real disk): accepted means magic, version and exact length.
Missing with respect to C02: the larger declared lengths, see
`C02_wrapped_length`. -/
theorem C02_exact_length_partial (be : Bool) (v : Version) (file : List Byte)
    (hf : file.length < 2 ^ 64) (count : Word) (words : List Word) (hc : count.val < 2 ^ 61) :
    loadHeader be v file = .ok (count, words) ↔
      ∃ M m, FileLayout be M m count words file ∧ VersionGE M m (minVersion v) ∧
        count.val = words.length := by
  rw [C02_accept_iff be v file hf]
  constructor <;> rintro ⟨M, m, h1, h2, h3⟩ <;> exact ⟨M, m, h1, h2, by omega⟩

/-- The byte count is computed modulo `2^64`: a file with an empty payload that
declares `2^61` words is accepted, so C02 as stated is false. -/
theorem C02_wrapped_length (be : Bool) : ∃ file : List Byte, ∃ count : Word,
    count.val = 2 ^ 61 ∧ FileLayout be 2 3 count [] file ∧
      loadHeader be ⟨2, 3⟩ file = .ok (count, []) := by
  refine ⟨_, mkWord (2 ^ 61), by decide, rfl, ?_⟩
  rw [C02_accept_iff]
  · exact ⟨2, 3, rfl, by right; exact ⟨rfl, by decide⟩, by decide⟩
  · simp

/-- C02, error branch: a file whose header is not accepted is reported as an
invalid file or invalid input, and the state of the system is untouched. -/
theorem C02_reject_keeps_state {σ : Type} (be : Bool) (v : Version) (rd : Rd σ) (old : σ)
    (file : List Byte) (hf : file.length < 2 ^ 64)
    (hbad : ¬ ∃ M m count words, FileLayout be M m count words file ∧
      VersionGE M m (minVersion v) ∧ count.val * 8 % 2 ^ 64 = 8 * words.length) :
    load be v rd old file = .err .inputFile old ∨ load be v rd old file = .err .input old := by
  unfold load
  match hh : loadHeader be v file with
  | .ok (count, words) =>
    obtain ⟨M, m, h⟩ := (C02_accept_iff be v file hf count words).mp hh
    exact absurd ⟨M, m, count, words, h⟩ hbad
  | .error e =>
    cases e with
    | inputFile => left; rfl
    | input => right; rfl
    | mem =>
      exfalso
      unfold loadHeader at hh
      simp only at hh
      split_ifs at hh <;> cases hh

/-- A well formed file of a system with more data is detected only after the
state was overwritten: the error `mem` leaves the new values in place. -/
theorem C02_mismatch_overwrites (w1 w2 : Word) (old : ℕ) :
    load false ⟨2, 3⟩ (rdNat ⟨false, 2 ^ 52⟩) old (save false ⟨2, 3⟩ [w1, w2])
      = .err .mem w1.val := by
  unfold load
  rw [C01_roundtrip false ⟨2, 3⟩ [w1, w2] (by norm_num) (by decide)]
  simp only [rdNat, deserU64]
  rw [if_neg]
  · simp
  · simp only [List.length_cons, List.length_nil]
    decide

/-- A well formed file of a system with less data makes the reader leave the
buffer (undefined behaviour), here: any reader that needs one more word. -/
theorem C02_short_payload_ub (old : ℕ) :
    load false ⟨2, 3⟩ (rdNat ⟨false, 2 ^ 52⟩) old (save false ⟨2, 3⟩ []) = .ub := by
  unfold load
  rw [C01_roundtrip false ⟨2, 3⟩ [] (by norm_num) (by decide)]
  rfl

/-- non-vacuity of `C02_reject_keeps_state`: the empty file is malformed -/
example : ¬ ∃ M m count words, FileLayout false M m count words [] ∧
      VersionGE M m (minVersion ⟨2, 3⟩) ∧ count.val * 8 % 2 ^ 64 = 8 * words.length := by
  rintro ⟨M, m, c, w, h, _⟩
  simp [FileLayout] at h

/-! ## C05: queries after a load -/

/-- C05 for every quantity that is stored (node positions and velocities,
tensions, forces, segment lengths and volumes, time): after the load it is what
it was when saved, whatever the loading line was before.  Missing with respect
to C05: the unstretched length and its rate, see `C05_unstretched_length_lost`. -/
theorem C05_stored_queries_partial (g : Cfg) (hc : FactorOk g.c) (saved loading : LineFull)
    (h : saved.snap.Ok) (rest : List Word) {β : Type} (query : LineS → β) :
    ∃ x', loading.load g (saved.snap.ser g ++ rest) = some (x', rest) ∧
      query x'.snap = query saved.snap := by
  refine ⟨{ loading with snap := saved.snap }, ?_, rfl⟩
  simp only [LineFull.load, C04_line hc h]

/-- C05 fails for the unstretched length and its rate: whatever the line was when
saved, the line that loads keeps answering its own values. -/
theorem C05_unstretched_length_lost (g : Cfg) (hc : FactorOk g.c) (saved loading : LineFull)
    (h : saved.snap.Ok) :
    ∃ x', loading.load g (saved.snap.ser g) = some (x', []) ∧
      x'.unstrLen = loading.unstrLen ∧ x'.unstrLend = loading.unstrLend := by
  refine ⟨{ loading with snap := saved.snap }, ?_, rfl, rfl⟩
  have := C04_line hc h []
  rw [List.append_nil] at this
  simp only [LineFull.load, this]

/-- a list of zero vectors, as freshly allocated by `Line::setup` -/
def zvec (n : ℕ) : List Vec := List.replicate n fun _ => 0

/-- A line of one segment, 64 m, at rest. -/
def line64 : LineFull :=
  ⟨⟨0, zvec 2, zvec 2, zvec 2, zvec 1, [64], [64], [0], [0, 0], List.replicate 2 fun _ _ => 0, [64],
    zvec 1, zvec 1, zvec 2, zvec 2, zvec 2, zvec 2, zvec 2, zvec 2, zvec 2, zvec 2, [0]⟩,
    1, 1, 64, 64, 0⟩

theorem okL_zvec (n : ℕ) (hn : n < 2 ^ 32) : okL okV (zvec n) := by
  refine ⟨by simpa [zvec] using hn, fun a ha => ?_⟩
  rw [List.eq_of_mem_replicate ha]
  exact okV_zero

theorem storable_two_pow (n : ℕ) (hn : n ≤ 1023) : Storable (2 ^ n) :=
  Or.inr ⟨⟨false, n, 0, by omega, by omega, by norm_num⟩, by simp [NormalDouble.value]⟩

/-- the 64 m line, set to 128 m, is storable -/
theorem line64_ok : (line64.setLen 128).snap.Ok := by
  have h64 : Storable 64 := by
    have := storable_two_pow 6 (by norm_num); norm_num at this; exact this
  have h128 : Storable 128 := by
    have := storable_two_pow 7 (by norm_num); norm_num at this; exact this
  have h0 : Storable 0 := Or.inl rfl
  have one : ∀ x, Storable x → okL Storable [x] := fun x hx =>
    ⟨by norm_num, by simpa using hx⟩
  exact
    { t := h0
      r := okL_zvec 2 (by norm_num), rd := okL_zvec 2 (by norm_num)
      q := okL_zvec 2 (by norm_num), qs := okL_zvec 1 (by norm_num)
      l := by simpa [line64, LineFull.setLen] using one _ h128
      lstr := one _ h64, ldstr := one _ h0
      Kurv := ⟨by simp [line64, LineFull.setLen], by simp [line64, LineFull.setLen, h0]⟩
      M := ⟨by simp [line64, LineFull.setLen], by
        intro a ha
        rw [List.eq_of_mem_replicate ha]
        exact fun _ => okV_zero⟩
      V := by simpa [line64, LineFull.setLen] using one _ h128
      T := okL_zvec 1 (by norm_num), Td := okL_zvec 1 (by norm_num)
      Bs := okL_zvec 2 (by norm_num), W := okL_zvec 2 (by norm_num)
      Dp := okL_zvec 2 (by norm_num), Dq := okL_zvec 2 (by norm_num)
      Ap := okL_zvec 2 (by norm_num), Aq := okL_zvec 2 (by norm_num)
      B := okL_zvec 2 (by norm_num), Fnet := okL_zvec 2 (by norm_num)
      F := one _ h0 }

/-- C05 as stated is false: set the length of a 64 m line to 128 m, save, load it
in a line freshly created from the same input file: the query answers 64 m. -/
theorem C05_as_stated_false : ¬ ∀ (g : Cfg) (saved loading x' : LineFull), saved.snap.Ok →
    loading.load g (saved.snap.ser g) = some (x', []) → x'.unstrLen = saved.unstrLen := by
  intro hall
  obtain ⟨x', h1, h2, _⟩ := C05_unstretched_length_lost ⟨false, 2 ^ 52⟩
    ⟨le_refl _, by norm_num⟩ (line64.setLen 128) line64 line64_ok
  have := hall _ _ _ _ line64_ok h1
  rw [h2] at this
  norm_num [line64, LineFull.setLen] at this

end MD.IO
