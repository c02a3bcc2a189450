import Verif.Model.Matlab

/-!
# What a MATLAB function should hand over and return

The inputs of a MATLAB function are, in order, the parameters of the function of the library that are read;
its outputs are, in order, those that are written.
-/

namespace MD.Matlab

/-- `Hands all ps is as`: the parameters `ps`, fed with the inputs `is` in order, are the arguments `as`.  The
parameters that are only written take no input: they are places of the size the prototype says (`all` are all
the inputs, to take the size from). -/
inductive Hands (all : List Arr) : List Par → List Arr → List Arg → Prop
  | nil : Hands all [] [] []
  | hdl {ps is as} (h : ℕ) (v : List ℕ) (r : Hands all ps is as) :
    Hands all (.hdl :: ps) (.u64 (h :: v) :: is) (.addr h :: as)
  | nat {ps is as} (n : ℕ) (v : List ℚ) (hn : n < 2 ^ 32) (r : Hands all ps is as) :
    Hands all (.nat :: ps) (.nums ((n : ℚ) :: v) :: is) (.int n :: as)
  | int {ps is as} (i : ℤ) (v : List ℚ) (hi : -(2 ^ 31) ≤ i ∧ i < 2 ^ 31) (r : Hands all ps is as) :
    Hands all (.int :: ps) (.nums ((i : ℚ) :: v) :: is) (.int i :: as)
  | dbl {ps is as} (x : ℚ) (v : List ℚ) (r : Hands all ps is as) :
    Hands all (.dbl :: ps) (.nums (x :: v) :: is) (.dbl x :: as)
  | io {ps is as} (x : ℚ) (v : List ℚ) (r : Hands all ps is as) :
    Hands all (.io :: ps) (.nums (x :: v) :: is) (.cell x :: as)
  | vec {ps is as} (v : List ℚ) (r : Hands all ps is as) :
    Hands all (.vec :: ps) (.nums v :: is) (.arr v :: as)
  | chars {ps is as} (s : String) (r : Hands all ps is as) :
    Hands all (.chars :: ps) (.chars s :: is) (.text s :: as)
  | out {ps is as} (n : ℕ) (r : Hands all ps is as) : Hands all (.out n :: ps) is (.room n :: as)
  | like {ps is as} (k : ℕ) (v : List ℚ) (hv : all[k]? = some (.nums v)) (r : Hands all ps is as) :
    Hands all (.like k :: ps) is (.room v.length :: as)

/-- The parameters written only, with their position and size. -/
def written (j : ℕ) : List Par → List (ℕ × ℕ)
  | [] => []
  | .out n :: ps => (j, n) :: written (j + 1) ps
  | _ :: ps => written (j + 1) ps

/-- An output that returns all of a parameter written. -/
def Whole : ℕ × ℕ → Out → Prop
  | (j, n), .scal i => i = j ∧ n = 1
  | (j, n), .addr i => i = j ∧ n = 1
  | (j, n), .row i => i = j ∧ 1 < n
  | (j, n), .square m i => i = j ∧ n = m * m
  | _, .ret => False

instance : DecidableRel Whole := fun p o => by
  obtain ⟨j, n⟩ := p
  cases o <;> unfold Whole <;> infer_instance

/-- One output for each parameter written, in order. -/
def Returned : List (ℕ × ℕ) → List Out → Prop
  | [], [] => True
  | p :: ps, o :: os => Whole p o ∧ Returned ps os
  | _, _ => False

instance decReturned : (ps : List (ℕ × ℕ)) → (os : List Out) → Decidable (Returned ps os)
  | [], [] => isTrue trivial
  | [], _ :: _ => isFalse id
  | _ :: _, [] => isFalse id
  | p :: ps, o :: os => by
    haveI := decReturned ps os
    exact inferInstanceAs (Decidable (Whole p o ∧ Returned ps os))

/-- The library reports a failure: by its code, or by returning no address. -/
def Failed : End → Ret → Prop
  | .code, r => r.code ≠ 0
  | .null, r => r.ptr = 0
  | .none, _ => False

/-- The element of row `i` and column `j` of a matrix of `n` columns in C, which keeps it row by row. -/
def rows (n : ℕ) (v : List ℚ) (i j : ℕ) : Option ℚ := v[n * i + j]?

/-- The functions that take a file name from the wrong input. -/
def unusable : List String :=
  ["MoorDynM_Load", "MoorDynM_Save", "MoorDynM_SaveBodyVTK", "MoorDynM_SaveLineVTK", "MoorDynM_SaveRodVTK",
   "MoorDynM_SaveVTK", "MoorDynM_SetLogFile", "MoorDynM_UseBodyVTK"]

end MD.Matlab
