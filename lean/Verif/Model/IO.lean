import Mathlib.Data.Nat.Bitwise
import Mathlib.Data.Rat.Defs
import Mathlib.Data.List.OfFn
import Mathlib.Algebra.Order.Ring.Rat
import Mathlib.Data.Rat.Floor

/-!
# Model of the snapshot files (`source/IO.cpp`)

Bytes are numbers below 256, words are numbers below `2^64`.
-/

namespace MD.IO

/-- A byte of a file. -/
abbrev Byte := Fin 256

/-- Number of values of a `uint64_t`. -/
def W64 : ℕ := 2 ^ 64

/-- A `uint64_t`. -/
abbrev Word := Fin W64

/-- Conversion to `uint64_t`: modulo `2^64`. -/
def mkWord (n : ℕ) : Word := ⟨n % W64, Nat.mod_lt _ (by decide)⟩

/-- `n` as `k` bytes, least significant first: the object representation of an
unsigned integer of `k` bytes on a little endian machine. -/
def toLE : ℕ → ℕ → List Byte
  | 0, _ => []
  | k + 1, n => ⟨n % 256, Nat.mod_lt _ (by decide)⟩ :: toLE k (n / 256)

/-- Value of a little endian byte string. -/
def ofLE : List Byte → ℕ
  | [] => 0
  | b :: bs => b.val + 256 * ofLE bs

/-- The 8 bytes of a `uint64_t` in memory on a machine of the given byte order
(`be = true`: big endian), i.e. what `f.write((char*)&v, sizeof(uint64_t))`
writes, source/IO.cpp:231-234. -/
def memBytes (be : Bool) (w : Word) : List Byte :=
  if be then (toLE 8 w.val).reverse else toLE 8 w.val

/-- The `uint64_t` whose memory representation is the given 8 bytes:
`f.read((char*)&length, sizeof(uint64_t))`, source/IO.cpp:276 and 292. -/
def ofMem (be : Bool) (bs : List Byte) : Word :=
  mkWord (if be then ofLE bs.reverse else ofLE bs)

/-- `swap_endian<uint64_t>`, source/IO.cpp:177-195: reverse the bytes.  (The
result does not depend on the byte order of the machine.) -/
def swapEndian (w : Word) : Word :=
  mkWord (ofLE (toLE 8 w.val).reverse)

/-- `IO::Serialize(const uint64_t&)`, source/IO.cpp:307-314. -/
def serU64 (be : Bool) (w : Word) : Word := if be then swapEndian w else w

/-- `IO::Deserialize(const uint64_t*, uint64_t&)`, source/IO.cpp:459-467
(the value read; pointer motion is in `rdU64` below). -/
def deserU64 (be : Bool) (w : Word) : Word := if be then swapEndian w else w

/-- The characters of "MoorDyn". -/
def magic : List Byte := [77, 111, 111, 114, 68, 121, 110]

/-- Version bytes compiled in the library: `MOORDYN_MAJOR_VERSION`,
`MOORDYN_MINOR_VERSION` (source/IO.cpp:43-48; the build system passes 2 and 3
for this commit, CMakeLists.txt). -/
structure Version where
  major : Byte
  minor : Byte
  deriving DecidableEq, Repr

/-- Minimum version accepted by a library of the given version: constructor
`IO::IO`, source/IO.cpp:197-209. -/
def minVersion (v : Version) : Version :=
  if 2 ≤ v.major.val then
    if 2 ≤ v.minor.val then ⟨v.major, v.minor⟩ else ⟨v.major, 2⟩
  else ⟨2, 2⟩

/-- `IO::Save`, source/IO.cpp:213-236, as the bytes written.  Failure to open
the file is not modelled (it throws `output_file_error` before anything else). -/
def save (be : Bool) (v : Version) (data : List Word) : List Byte :=
  magic ++ [v.major, v.minor]
    ++ memBytes be (mkWord data.length)
    ++ data.flatMap (memBytes be)

/-- Errors thrown by `IO::Load`. -/
inductive LoadErr
  | inputFile   -- moordyn::input_file_error
  | input       -- moordyn::input_error
  | mem         -- moordyn::mem_error
  deriving DecidableEq, Repr

/-- Split a byte string in `n` groups of 8: the `uint64_t*` view of the buffer,
source/IO.cpp:286-292. -/
def chunks (be : Bool) : ℕ → List Byte → List Word
  | 0, _ => []
  | n + 1, bs => ofMem be (bs.take 8) :: chunks be n (bs.drop 8)

/-- `strcmp(magic, "MoorDyn") == 0` on the 7 bytes read followed by a NUL,
source/IO.cpp:257-263: `strcmp` stops at the first NUL, and no byte of the
literal is NUL, hence plain equality of the 7 bytes. -/
def magicOk (bs : List Byte) : Bool := bs.take 7 = magic

/-- Version test of `IO::Load`, source/IO.cpp:267-268. -/
def versionOk (minv : Version) (major minor : Byte) : Bool :=
  !(major.val < minv.major.val || (major = minv.major && minor.val < minv.minor.val))

/-- Header part of `IO::Load`, source/IO.cpp:238-293: the words handed over to
`Deserialize` together with the declared length.  `length * sizeof(uint64_t)`
and `fsize - header_size` are `uint64_t` computations, hence the `% 2^64`.  A
failing `malloc` is not modelled. -/
def loadHeader (be : Bool) (v : Version) (file : List Byte) :
    Except LoadErr (Word × List Word) :=
  if file.length < 17 then .error .inputFile
  else if !magicOk file then .error .inputFile
  else if !versionOk (minVersion v) (file.getD 7 0) (file.getD 8 0) then .error .inputFile
  else
    let length : Word := ofMem be ((file.drop 9).take 8)
    let size : ℕ := length.val * 8 % W64
    if size ≠ (file.length - 17) % W64 then .error .input
    else .ok (length, chunks be (size / 8) (file.drop 17))

/-! ## Floating point numbers: `pack754` and `unpack754` -/

/-- The `long double` argument of `pack754`: a finite value (exact rational) or
an infinity.  NaN is not modelled. -/
inductive LD
  | fin (q : ℚ)
  | inf (neg : Bool)

/-- `while (fnorm >= 2.0) { fnorm /= 2.0; shift++; }`, source/IO.cpp:84-87.
Halving is exact in binary floating point.  `none`: the given number of
iterations is not enough. -/
def normDown : ℕ → ℚ → ℤ → Option (ℚ × ℤ)
  | fuel, x, sh =>
    if x ≥ 2 then
      match fuel with
      | 0 => none
      | f + 1 => normDown f (x / 2) (sh + 1)
    else some (x, sh)

/-- `while (fnorm < 1.0) { fnorm *= 2.0; shift--; }`, source/IO.cpp:88-91. -/
def normUp : ℕ → ℚ → ℤ → Option (ℚ × ℤ)
  | fuel, x, sh =>
    if x < 1 then
      match fuel with
      | 0 => none
      | f + 1 => normUp f (x * 2) (sh - 1)
    else some (x, sh)

/-- The same first loop started at an infinity, source/IO.cpp:84-87:
`inf >= 2.0` holds and `inf / 2.0` is `inf`, so the loop never exits. -/
def normDownInf : ℕ → Option (ℚ × ℤ)
  | 0 => none
  | f + 1 => normDownInf f

/-- `pack754(f, 64, 11)`, source/IO.cpp:62-102, on a finite value or infinity,
with at most `fuel` iterations of each loop.  `c` is the factor
`(1LL << 52) + 0.5f` (line 95): it is evaluated in `float`, so compilers
give `2^52`, while exact arithmetic gives `2^52 + 1/2`; the theorems hold for
both.  The result is the `long long` as a 64-bit word, `|` is bitwise or, and
`exp << 52` of a negative `exp` is taken modulo `2^64` (what compilers do; it
is undefined before C++20). -/
def pack754 (fuel : ℕ) (c : ℚ) (f : LD) : Option ℕ :=
  match f with
  | .inf _ => (normDownInf fuel).map fun _ => 0
  | .fin f =>
    if f = 0 then some 0
    else
      let sign : ℕ := if f < 0 then 1 else 0
      let fnorm := if f < 0 then -f else f
      match normDown fuel fnorm 0 with
      | none => none
      | some (x1, s1) =>
        match normUp fuel x1 s1 with
        | none => none
        | some (x2, s2) =>
          let significand : ℕ := (⌊(x2 - 1) * c⌋).toNat
          let exp : ℤ := s2 + 1023
          some ((sign <<< 63) ||| ((exp * 2 ^ 52 % 2 ^ 64).toNat ||| significand))

/-- `unpack754(i, 64, 11)`, source/IO.cpp:115-147, as an exact rational (the
powers of two and the sum `1 + m/2^52` are exact in `long double` and in
`double`); the two `while` loops multiply by `2^shift`. -/
def unpack754 (w : ℕ) : ℚ :=
  if w = 0 then 0
  else
    let m : ℚ := ((w &&& (2 ^ 52 - 1) : ℕ) : ℚ)
    let r : ℚ := m / 2 ^ 52 + 1
    let shift : ℤ := (((w >>> 52) &&& (2 ^ 11 - 1) : ℕ) : ℤ) - 1023
    let r := r * (2 : ℚ) ^ shift
    r * (if (w >>> 63) &&& 1 = 1 then -1 else 1)

/-! ## Writers and readers of the composite values -/

/-- A reader: the C++ functions `uint64_t* Deserialize(const uint64_t*, T&)`
take the position and return the next position; here the remaining words.
`none` is a read beyond the buffer (undefined behaviour). -/
abbrev Rd (α : Type) := List Word → Option (α × List Word)

namespace Rd
/-- sequencing of two reads -/
def bind {α β : Type} (p : Rd α) (f : α → Rd β) : Rd β := fun ws =>
  match p ws with
  | none => none
  | some (a, ws') => f a ws'
/-- no read -/
def pure {α : Type} (a : α) : Rd α := fun ws => some (a, ws)
end Rd

/-- Byte order of the machine and encoding of reals used by the writers. The
factor of line 95 of source/IO.cpp is in `c`. -/
structure Cfg where
  be : Bool
  c : ℚ

/-- `IO::Serialize(const real&)`, source/IO.cpp:316-327.  Inputs on which
`pack754` does not stop are mapped to word 0 (never used in the theorems,
whose hypotheses ask for storable values). -/
def serReal (g : Cfg) (x : ℚ) : List Word :=
  [serU64 g.be (mkWord ((pack754 2200 g.c (.fin x)).getD 0))]

/-- `IO::Serialize(const uint64_t&)` as a list. -/
def serNat (g : Cfg) (n : ℕ) : List Word := [serU64 g.be (mkWord n)]

/-- `IO::Deserialize(const uint64_t*, uint64_t&)`, source/IO.cpp:459-467. -/
def rdNat (g : Cfg) : Rd ℕ := fun ws =>
  match ws with
  | [] => none
  | w :: ws => some ((deserU64 g.be w).val, ws)

/-- `IO::Deserialize(const uint64_t*, real&)`, source/IO.cpp:478-485. -/
def rdReal (g : Cfg) : Rd ℚ := fun ws =>
  match ws with
  | [] => none
  | w :: ws => some (unpack754 (deserU64 g.be w).val, ws)

/-- Fixed-size arrays: the `for` loops of `IO::Serialize` for `vec` (329-337),
`vec6` (339-347), and, nested, `mat` (349-358), `mat6` (360-369), and the
`x,y,z,w` coefficients of a quaternion (371-380), source/IO.cpp. -/
def serFn {α : Type} (ser : α → List Word) {n : ℕ} (v : Fin n → α) : List Word :=
  (List.ofFn fun i => ser (v i)).flatten

/-- The matching loops of `IO::Deserialize`: `vec` (487-494), `vec6` (496-503),
`mat` (505-513), `mat6` (515-523), quaternion (525-532), source/IO.cpp. -/
def rdFn {α : Type} (rd : Rd α) : (n : ℕ) → Rd (Fin n → α)
  | 0 => Rd.pure Fin.elim0
  | n + 1 => Rd.bind rd fun a => Rd.bind (rdFn rd n) fun v => Rd.pure (Fin.cons a v)

/-- `IO::Serialize(const std::vector<T>&)`, source/IO.cpp:391-457: the size and
then the elements. -/
def serVec {α : Type} (g : Cfg) (ser : α → List Word) (l : List α) : List Word :=
  serNat g l.length ++ l.flatMap ser

/-- `n` consecutive reads. -/
def rdRep {α : Type} (rd : Rd α) : ℕ → Rd (List α)
  | 0 => Rd.pure []
  | n + 1 => Rd.bind rd fun a => Rd.bind (rdRep rd n) fun l => Rd.pure (a :: l)

/-- `IO::Deserialize(const uint64_t*, std::vector<T>&)`, source/IO.cpp:542-615.
The loop counter is a 32-bit `unsigned int` compared with a 64-bit size: for
sizes of `2^32` or more it wraps around and the loop runs until it leaves the
buffer. -/
def rdVec {α : Type} (g : Cfg) (rd : Rd α) : Rd (List α) :=
  Rd.bind (rdNat g) fun n => if n < 2 ^ 32 then rdRep rd n else fun _ => none

/-- `vec` -/ abbrev Vec := Fin 3 → ℚ
/-- `vec6` -/ abbrev Vec6 := Fin 6 → ℚ
/-- `mat` -/ abbrev Mat := Fin 3 → Fin 3 → ℚ
/-- `mat6` -/ abbrev Mat6 := Fin 6 → Fin 6 → ℚ

/-- `XYZQuat`: position and the quaternion coefficients `x, y, z, w`
(source/Misc.hpp:277-316). -/
structure XYZQuat where
  pos : Vec
  quat : Fin 4 → ℚ

section
variable (g : Cfg)

/-- `IO::Serialize(const vec&)`, source/IO.cpp:329-337 -/
def serV3 (v : Vec) := serFn (serReal g) v
/-- `IO::Deserialize(.., vec&)`, source/IO.cpp:487-494 -/
def rdV3 : Rd Vec := rdFn (rdReal g) 3
/-- `IO::Serialize(const vec6&)`, source/IO.cpp:339-347 -/
def serV6 (v : Vec6) := serFn (serReal g) v
/-- `IO::Deserialize(.., vec6&)`, source/IO.cpp:496-503 -/
def rdV6 : Rd Vec6 := rdFn (rdReal g) 6
/-- `IO::Serialize(const mat&)`, source/IO.cpp:349-358 -/
def serM3 (m : Mat) := serFn (serFn (serReal g)) m
/-- `IO::Deserialize(.., mat&)`, source/IO.cpp:505-513 -/
def rdM3 : Rd Mat := rdFn (rdFn (rdReal g) 3) 3
/-- `IO::Serialize(const mat6&)`, source/IO.cpp:360-369 -/
def serM6 (m : Mat6) := serFn (serFn (serReal g)) m
/-- `IO::Deserialize(.., mat6&)`, source/IO.cpp:515-523 -/
def rdM6 : Rd Mat6 := rdFn (rdFn (rdReal g) 6) 6
/-- `IO::Serialize(const XYZQuat&)`, source/IO.cpp:382-389 -/
def serXQ (x : XYZQuat) := serV3 g x.pos ++ serFn (serReal g) x.quat
/-- `IO::Deserialize(.., XYZQuat&)`, source/IO.cpp:534-540 -/
def rdXQ : Rd XYZQuat :=
  Rd.bind (rdV3 g) fun p => Rd.bind (rdFn (rdReal g) 4) fun q => Rd.pure ⟨p, q⟩

/-- vectors of reals / vec / mat -/
def serReals (l : List ℚ) := serVec g (serReal g) l
/-- see `rdVec` -/
def rdReals : Rd (List ℚ) := rdVec g (rdReal g)
/-- vectors of `vec` -/
def serVecs (l : List Vec) := serVec g (serV3 g) l
/-- see `rdVec` -/
def rdVecs : Rd (List Vec) := rdVec g (rdV3 g)
/-- vectors of `mat` -/
def serMats (l : List Mat) := serVec g (serM3 g) l
/-- see `rdVec` -/
def rdMats : Rd (List Mat) := rdVec g (rdM3 g)
end

end MD.IO
