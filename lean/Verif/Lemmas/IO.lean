import Verif.Model.Snapshot
import Mathlib.Tactic.Linarith
import Mathlib.Tactic.NormNum
import Mathlib.Tactic.Ring
import Mathlib.Tactic.FieldSimp
import Mathlib.Tactic.Positivity

/-! Helper lemmas for the snapshot model. -/

set_option linter.unusedSimpArgs false

namespace MD.IO

@[simp] theorem toLE_length (k n : ℕ) : (toLE k n).length = k := by
  induction k generalizing n with
  | zero => rfl
  | succ k ih => simp [toLE, ih]

theorem ofLE_toLE (k n : ℕ) : ofLE (toLE k n) = n % 256 ^ k := by
  induction k generalizing n with
  | zero => simp [toLE, ofLE, Nat.mod_one]
  | succ k ih =>
    simp only [toLE, ofLE, ih]
    rw [pow_succ, Nat.mul_comm (256 ^ k) 256, Nat.mod_mul]

theorem ofLE_lt (bs : List Byte) : ofLE bs < 256 ^ bs.length := by
  induction bs with
  | nil => simp [ofLE]
  | cons b bs ih =>
    have := b.isLt
    simp only [ofLE, List.length_cons, pow_succ]
    omega

theorem toLE_ofLE (bs : List Byte) : toLE bs.length (ofLE bs) = bs := by
  induction bs with
  | nil => rfl
  | cons b bs ih =>
    have hb := b.isLt
    have h1 : (b.val + 256 * ofLE bs) % 256 = b.val := by omega
    have h2 : (b.val + 256 * ofLE bs) / 256 = ofLE bs := by omega
    simp only [List.length_cons, toLE, ofLE, h1, h2, ih]

theorem pow64 : (256 : ℕ) ^ 8 = W64 := by decide

@[simp] theorem memBytes_length (be : Bool) (w : Word) : (memBytes be w).length = 8 := by
  cases be <;> simp [memBytes]

theorem ofMem_memBytes (be : Bool) (w : Word) : ofMem be (memBytes be w) = w := by
  have h : ofLE (toLE 8 w.val) = w.val := by
    rw [ofLE_toLE, pow64, Nat.mod_eq_of_lt w.isLt]
  apply Fin.ext
  cases be <;> simp [memBytes, ofMem, h, mkWord, Nat.mod_eq_of_lt w.isLt]

theorem memBytes_ofMem (be : Bool) (bs : List Byte) (h : bs.length = 8) :
    memBytes be (ofMem be bs) = bs := by
  cases be
  · have hlt := ofLE_lt bs
    rw [h, pow64] at hlt
    have := toLE_ofLE bs
    rw [h] at this
    simp [memBytes, ofMem, mkWord, Nat.mod_eq_of_lt hlt, this]
  · have hlt := ofLE_lt bs.reverse
    rw [List.length_reverse, h, pow64] at hlt
    have := toLE_ofLE bs.reverse
    rw [List.length_reverse, h] at this
    simp [memBytes, ofMem, mkWord, Nat.mod_eq_of_lt hlt, this]

theorem toLE_swap (w : Word) : toLE 8 (swapEndian w).val = (toLE 8 w.val).reverse := by
  have h := memBytes_ofMem false (toLE 8 w.val).reverse (by simp)
  simpa [memBytes, ofMem, swapEndian] using h

theorem swap_swap (w : Word) : swapEndian (swapEndian w) = w := by
  apply Fin.ext
  have h : ofLE (toLE 8 w.val) = w.val := by
    rw [ofLE_toLE, pow64, Nat.mod_eq_of_lt w.isLt]
  rw [swapEndian, toLE_swap]
  simp [mkWord, h, Nat.mod_eq_of_lt w.isLt]

theorem deser_ser (be : Bool) (w : Word) : deserU64 be (serU64 be w) = w := by
  cases be <;> simp [deserU64, serU64, swap_swap]

theorem chunks_flatMap (be : Bool) (data : List Word) (rest : List Byte) :
    chunks be data.length (data.flatMap (memBytes be) ++ rest) = data := by
  induction data with
  | nil => rfl
  | cons w ws ih =>
    have h8 := memBytes_length be w
    simp only [List.length_cons, chunks, List.flatMap_cons, List.append_assoc]
    rw [List.take_append_of_le_length (by omega), List.take_of_length_le (by omega),
      ofMem_memBytes]
    congr 1
    rw [List.drop_append_of_le_length (by omega), List.drop_of_length_le (by omega)]
    simpa using ih

theorem flatMap_memBytes_length (be : Bool) (data : List Word) :
    (data.flatMap (memBytes be)).length = 8 * data.length := by
  induction data with
  | nil => rfl
  | cons w ws ih => simp [List.flatMap_cons, ih]; omega

theorem chunks_spec (be : Bool) (n : ℕ) (bs : List Byte) (h : bs.length = 8 * n) :
    (chunks be n bs).flatMap (memBytes be) = bs ∧ (chunks be n bs).length = n := by
  induction n generalizing bs with
  | zero =>
    have : bs = [] := List.length_eq_zero_iff.mp (by omega)
    subst this; simp [chunks]
  | succ n ih =>
    have h1 : (bs.take 8).length = 8 := by simp; omega
    have h2 : (bs.drop 8).length = 8 * n := by simp; omega
    obtain ⟨ha, hb⟩ := ih _ h2
    refine ⟨?_, by simp [chunks, hb]⟩
    simp only [chunks, List.flatMap_cons, ha, memBytes_ofMem be _ h1]
    exact List.take_append_drop 8 bs

/-! ### reader laws -/

/-- `rd` reads back what `ser` wrote for the value `a`. -/
def Law {α : Type} (ser : α → List Word) (rd : Rd α) (a : α) : Prop :=
  ∀ rest, rd (ser a ++ rest) = some (a, rest)

theorem law_fn {α : Type} {ser : α → List Word} {rd : Rd α} {n : ℕ} {v : Fin n → α}
    (h : ∀ i, Law ser rd (v i)) : Law (serFn ser) (rdFn rd n) v := by
  induction n with
  | zero =>
    intro rest
    simp only [serFn, rdFn, Rd.pure, List.ofFn_zero, List.flatten_nil, List.nil_append]
    congr 2
    funext i; exact i.elim0
  | succ n ih =>
    intro rest
    simp only [serFn, rdFn, Rd.bind, Rd.pure, List.ofFn_succ, List.flatten_cons,
      List.append_assoc]
    rw [h 0]
    have := ih (v := fun i => v i.succ) (fun i => h i.succ) rest
    simp only [serFn] at this
    simp only [this]
    congr 2
    funext i
    refine Fin.cases ?_ (fun j => ?_) i <;> simp

theorem law_rep {α : Type} {ser : α → List Word} {rd : Rd α} {l : List α}
    (h : ∀ a ∈ l, Law ser rd a) (rest : List Word) :
    rdRep rd l.length (l.flatMap ser ++ rest) = some (l, rest) := by
  induction l with
  | nil => rfl
  | cons a l ih =>
    simp only [List.length_cons, rdRep, Rd.bind, Rd.pure, List.flatMap_cons, List.append_assoc]
    rw [h a (by simp)]
    simp only [ih (fun b hb => h b (by simp [hb]))]

theorem rdNat_ser (g : Cfg) (n : ℕ) (hn : n < W64) (rest : List Word) :
    rdNat g (serNat g n ++ rest) = some (n, rest) := by
  simp only [rdNat, serNat, deser_ser, mkWord, List.cons_append, List.nil_append]
  rw [Nat.mod_eq_of_lt hn]

theorem law_vec {α : Type} {g : Cfg} {ser : α → List Word} {rd : Rd α} {l : List α}
    (hl : l.length < 2 ^ 32) (h : ∀ a ∈ l, Law ser rd a) :
    Law (serVec g ser) (rdVec g rd) l := by
  intro rest
  simp only [serVec, rdVec, Rd.bind, List.append_assoc]
  rw [rdNat_ser g _ (by unfold W64; omega)]
  simp only
  rw [if_pos hl]
  exact law_rep h rest

end MD.IO
