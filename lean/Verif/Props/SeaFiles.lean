import Mathlib.Tactic.Linarith
import Verif.Model.SeaFiles
import Verif.Props.Numbers
import Verif.Props.WaveInput
import Verif.Props.Options

/-!
# C97: the files that describe the sea
-/

set_option linter.unusedSimpArgs false
set_option linter.unusedVariables false

namespace MD.SeaFiles

open MD.Text

/-! ## Specification -/

/-- The line consists of these words, separated by spaces, and whatever blanks at its end (a carriage
return, for example). -/
def Row (l : Str) (ws : List Str) : Prop :=
  ∃ body tail, l = body ++ tail ∧ (∀ c ∈ tail, isSpace c = true) ∧ Words (· = ' ') body ws ∧
    ∀ w ∈ ws, ∀ c ∈ w, isSpace c = false

/-- The word is this number in decimal notation. -/
def Num (w : Str) (q : ℚ) : Prop := ∃ n : Written, n.good ∧ w = n.text ∧ q = n.value

/-- The word begins with a letter that begins no number. -/
def NotNum (w : Str) : Prop :=
  ∃ c r, w = c :: r ∧ isAlpha c = true ∧ c ≠ 'i' ∧ c ≠ 'I' ∧ c ≠ 'n' ∧ c ≠ 'N'

/-- The word is this count. -/
def Count (w : Str) (n : ℕ) : Prop :=
  w ≠ [] ∧ (∀ c ∈ w, c ∈ "0123456789".toList) ∧ digits w = n ∧ n < 2 ^ 32

/-! ## Words and numbers -/

theorem Words.post {sep : Char → Prop} {s : Str} {ws : List Str} (h : Words sep s ws) (c : Char)
    (hc : sep c) : Words sep (s ++ [c]) ws := by
  induction h with
  | none g hg =>
    refine .none _ fun x hx => ?_
    rcases List.mem_append.1 hx with hx | hx
    · exact hg x hx
    · rw [List.mem_singleton.1 hx]; exact hc
  | last g w hg hw hs => exact .more g w c [] [] hg hw hs hc (.none [] (by simp))
  | more g w d s ws hg hw hs hd h ih =>
    rw [List.append_assoc, List.cons_append]
    exact .more g w d _ ws hg hw hs hd ih

theorem Words.posts {sep : Char → Prop} {s : Str} {ws : List Str} (h : Words sep s ws) (t : Str)
    (ht : ∀ c ∈ t, sep c) : Words sep (s ++ t) ws := by
  induction t using List.reverseRecOn with
  | nil => simpa using h
  | append_singleton t c ih =>
    rw [← List.append_assoc]
    exact Words.post (ih fun x hx => ht x (by simp [hx])) c (ht c (by simp))

theorem Words.chars {s : Str} {ws : List Str} (h : Words (· = ' ') s ws) (c : Char) (hc : c ∈ s) :
    c = ' ' ∨ ∃ w ∈ ws, c ∈ w := by
  induction h with
  | none g hg => exact Or.inl (hg c hc)
  | last g w hg hw hs =>
    rcases List.mem_append.1 hc with hc | hc
    · exact Or.inl (hg c hc)
    · exact Or.inr ⟨w, by simp, hc⟩
  | more g w d s ws hg hw hs hd h ih =>
    rcases List.mem_append.1 hc with hc | hc
    · rcases List.mem_append.1 hc with hc | hc
      · exact Or.inl (hg c hc)
      · exact Or.inr ⟨w, by simp, hc⟩
    · rcases List.mem_cons.1 hc with hc | hc
      · exact Or.inl (hc.trans hd)
      · rcases ih hc with h | ⟨v, hv, hc⟩
        · exact Or.inl h
        · exact Or.inr ⟨v, by simp [hv], hc⟩

theorem rtrim_append (s t : Str) (ht : ∀ c ∈ t, isSpace c = true) : rtrim (s ++ t) = rtrim s := by
  unfold rtrim
  rw [List.reverse_append, List.dropWhile_append_of_pos]
  intro c hc
  exact ht c (List.mem_reverse.1 hc)

/-- The words of a line are found. -/
theorem row_split {l : Str} {ws : List Str} (h : Row l ws) : splitBlank (rtrim l) = ws := by
  obtain ⟨body, tail, rfl, ht, hw, hs⟩ := h
  rw [rtrim_append body tail ht]
  obtain ⟨⟨t, hb, htt⟩, -⟩ := C52_rtrim body
  have hts : ∀ c ∈ t, c = ' ' := fun c hc => by
    rcases Words.chars hw c (by rw [hb]; simp [hc]) with h | ⟨w, hw, hcw⟩
    · exact h
    · have := hs w hw c hcw
      rw [htt c hc] at this
      cases this
  have h1 := C52_split_words ' ' (rtrim body)
  have h2 : Words (· = ' ') body (split ' ' (rtrim body)) := by
    rw [hb]
    conv => arg 3; rw [← hb]
    exact Words.posts h1 t hts
  have h3 : split ' ' (rtrim body) = ws := by
    rw [C52_split_unique] at h2 hw
    rw [← h2, hw]
  unfold splitBlank
  rw [h3]
  have hne : ∀ w ∈ ws, w ≠ [] ∧ ' ' ∉ w := fun w hm => by
    rw [← h3] at hm
    exact C52_tokens ' ' _ w hm
  split
  · next w =>
    rw [← C52_split_unique]
    refine .last [] w (by simp) (hne w (by simp)).1 fun c hc e => ?_
    have := hs w (by simp) c hc
    rw [e] at this
    revert this
    decide
  · rfl

theorem num_read {w : Str} {q : ℚ} (h : Num w q) : strtold w = some (.fin q) := by
  obtain ⟨n, hn, rfl, rfl⟩ := h
  exact C48_written n hn

theorem num_stod {w : Str} {q : ℚ} (h : Num w q) : stod w = .ok (.fin q) := by
  simp [stod, num_read h]

theorem notNum_read {w : Str} (h : NotNum w) : strtold w = none := by
  obtain ⟨c, r, rfl, ha, h1, h2, h3, h4⟩ := h
  have hr : (65 ≤ c.toNat ∧ c.toNat ≤ 90) ∨ (97 ≤ c.toNat ∧ c.toNat ≤ 122) := by
    simpa [isAlpha, isUpper, isLower] using ha
  have hsp : isSpace c = false := by
    rw [Bool.eq_false_iff]
    intro h
    simp only [isSpace, Bool.or_eq_true, decide_eq_true_eq] at h
    rcases h with ((((rfl | rfl) | rfl) | rfl) | rfl) | rfl <;> revert hr <;> decide
  have h0 : (c :: r).dropWhile isSpace = c :: r := by
    rw [List.dropWhile_cons_of_neg (by simp [hsp])]
  have hsign : sign (c :: r) = (false, c :: r) := by
    unfold sign
    split
    · next e => simp only [List.cons.injEq] at e; rw [e.1] at hr; exact absurd hr (by decide)
    · next e => simp only [List.cons.injEq] at e; rw [e.1] at hr; exact absurd hr (by decide)
    · rfl
  have hd : isDigit c = false := by
    rw [Bool.eq_false_iff]
    simp only [isDigit, ne_eq, Bool.and_eq_true, decide_eq_true_eq]
    omega
  have hup : c ∈ "ABCDEFGHIJKLMNOPQRSTUVWXYZ".toList → toLower c ≠ 'i' ∧ toLower c ≠ 'n' := by
    have : ∀ x ∈ "ABCDEFGHIJKLMNOPQRSTUVWXYZ".toList, x ≠ 'I' → x ≠ 'N' →
        toLower x ≠ 'i' ∧ toLower x ≠ 'n' := by decide
    exact fun h => this c h h2 h4
  have hlo : c ∉ "ABCDEFGHIJKLMNOPQRSTUVWXYZ".toList → toLower c ≠ 'i' ∧ toLower c ≠ 'n' := by
    intro h
    rw [C52_case.2.2.2 c h]
    exact ⟨h1, h3⟩
  obtain ⟨hi, hn⟩ := (em _).elim hup hlo
  have hinf : startswith (lower (c :: r)) "inf".toList = false := by
    rw [show "inf".toList = ['i', 'n', 'f'] by decide]
    simp [startswith, lower, List.isPrefixOf, hi.symm]
  have hnan : startswith (lower (c :: r)) "nan".toList = false := by
    rw [show "nan".toList = ['n', 'a', 'n'] by decide]
    simp [startswith, lower, List.isPrefixOf, hn.symm]
  have hdot : fraction (c :: r) = ([], c :: r) := by
    unfold fraction
    split
    · next e => simp only [List.cons.injEq] at e; rw [e.1] at hr; exact absurd hr (by decide)
    · rfl
  unfold strtold
  rw [h0]
  simp only [hsign, hinf, hnan, Bool.false_eq_true, if_false]
  simp [hd, hdot]

theorem count_stoul {w : Str} {n : ℕ} (h : Count w n) : stoul w = .ok n := by
  obtain ⟨hne, hd, rfl, hlt⟩ := h
  have d : ∀ c ∈ w, isDigit c = true := fun c hc => isDigit_of (hd c hc)
  have hs := digits_head d none [] hne
  simp only [signText, List.nil_append, List.append_nil] at hs
  have h0 : w.dropWhile isSpace = w := by
    obtain ⟨c, r, rfl⟩ := List.exists_cons_of_ne_nil hne
    have hc := d c (by simp)
    rw [List.dropWhile_cons_of_neg]
    intro h
    simp only [isSpace, Bool.or_eq_true, decide_eq_true_eq] at h
    rcases h with ((((rfl | rfl) | rfl) | rfl) | rfl) | rfl <;> revert hc <;> decide
  have htw : w.takeWhile isDigit = w := List.takeWhile_eq_self_iff.2 d
  unfold stoul
  rw [h0]
  simp only [hs, htw, natOf_digits]
  rw [if_neg (by simp [hne]), if_neg (by omega)]
  simp
  omega

theorem mapM_ok {α β : Type} (f : α → Except Err β) (l : List α) (r : List β)
    (h : List.Forall₂ (fun a b => f a = .ok b) l r) : l.mapM f = .ok r := by
  induction h with
  | nil => rfl
  | cons h _ ih => simp [List.mapM_cons, h, ih]; rfl

theorem mapM_first {α β : Type} (f : α → Except Err β) (pre : List α) (a : α) (post : List α) (e : Err)
    (h : ∀ x ∈ pre, ∃ b, f x = .ok b) (ha : f a = .error e) :
    (pre ++ a :: post).mapM f = .error e := by
  induction pre with
  | nil => simp [List.mapM_cons, ha]; rfl
  | cons x pre ih =>
    obtain ⟨b, hb⟩ := h x (by simp)
    simp [List.mapM_cons, hb, ih fun y hy => h y (by simp [hy])]
    rfl

theorem mapM_bad {α β : Type} (f : α → Except Err β) (l : List α) (e : Err) (a : α) (ha : a ∈ l)
    (hf : ∃ e', f a = .error e') (hall : ∀ x ∈ l, ∀ e', f x = .error e' → e' = e) :
    l.mapM f = .error e := by
  induction l with
  | nil => cases ha
  | cons x l ih =>
    cases hx : f x with
    | error e' =>
      have := hall x (by simp) e' hx
      subst this
      simp [List.mapM_cons, hx]; rfl
    | ok b =>
      rcases List.mem_cons.1 ha with rfl | hm
      · obtain ⟨e', he⟩ := hf
        rw [hx] at he; cases he
      · simp [List.mapM_cons, hx, ih hm fun y hy => hall y (by simp [hy])]
        rfl

theorem forall2_rtrim {β : Type} (f : Str → Except Err β) (ls : List Str) (rows : List (List Str))
    (vals : List β) (hr : List.Forall₂ Row ls rows) (R : List Str → β → Prop)
    (hv : List.Forall₂ R rows vals)
    (hf : ∀ l ws v, splitBlank l = ws → R ws v → f l = .ok v) :
    (ls.map rtrim).mapM f = .ok vals := by
  apply mapM_ok
  induction hr generalizing vals with
  | nil => cases hv; exact .nil
  | cons h _ ih =>
    cases hv with
    | cons h1 h2 => exact .cons (hf _ _ _ (row_split h) h1) (ih _ h2)

/-! ## Where the files are -/

/-- C97: for an input file in a directory (which ends in a slash), the files are looked for in that
directory: the doubled slash counts as one. -/
theorem C97_place (dir base ext file : Str) (hlen : (dir ++ base ++ ext).length < 2 ^ 63)
    (hdir : ∃ d c, dir = d ++ [c] ∧ Options.isSep c = true)
    (hbase : ∀ c ∈ base ++ ext, Options.isSep c = false)
    (hext : (ext = [] ∧ ∀ c ∈ base, c ≠ '.') ∨ ∃ e, ext = '.' :: e ∧ ∀ c ∈ e, c ≠ '.') :
    ∃ folder, Options.splitPath (dir ++ base ++ ext) = some (folder, base) ∧
      pathIn folder file = dir ++ '/' :: file ∧
      path4D folder = dir ++ "current_profile_4d.txt".toList :=
  ⟨dir, Options.C80_split dir base ext hlen (Or.inr hdir) hbase hext, rfl, rfl⟩

/-- C97, false: for an input file given without a directory they are looked for in the root of the
file system, and not beside it; the one of currents in space and time is found. -/
theorem C97_place_false (base ext file : Str) (hlen : (base ++ ext).length < 2 ^ 63)
    (hbase : ∀ c ∈ base ++ ext, Options.isSep c = false)
    (hext : (ext = [] ∧ ∀ c ∈ base, c ≠ '.') ∨ ∃ e, ext = '.' :: e ∧ ∀ c ∈ e, c ≠ '.') :
    ∃ folder, Options.splitPath (base ++ ext) = some (folder, base) ∧
      pathIn folder file = '/' :: file ∧ path4D folder = "current_profile_4d.txt".toList :=
  ⟨[], Options.C80_split [] base ext hlen (Or.inl rfl) hbase hext, rfl, rfl⟩

/-- C97: a file that cannot be opened is an error of the input. -/
theorem C97_missing (fs : Str → Option Str) (folder : Str) :
    (fs (pathIn folder "wave_frequencies.txt".toList) = none → spectrum fs folder = .error .input) ∧
    (fs (pathIn folder "wave_elevation.txt".toList) = none → elevation fs folder = .error .input) ∧
    (fs (pathIn folder "water_grid.txt".toList) = none → waterGrid fs folder = .error .input) ∧
    (fs (pathIn folder "current_profile.txt".toList) = none → steady fs folder = .error .input) ∧
    (fs (pathIn folder "current_profile_dynamic.txt".toList) = none →
      dynamic fs folder = .error .input) ∧
    (fs (path4D folder) = none → current4D fs folder = .error .input) := by
  refine ⟨fun h => ?_, fun h => ?_, fun h => ?_, fun h => ?_, fun h => ?_, fun h => ?_⟩
  · unfold spectrum load; rw [h]; rfl
  · unfold elevation load; rw [h]; rfl
  · unfold waterGrid load; rw [h]; rfl
  · unfold steady load; rw [h]; rfl
  · unfold dynamic load; rw [h]; rfl
  · unfold current4D load; rw [h]; rfl

/-! ## The spectrum -/

/-- A component as documented: frequency, real and imaginary part, and a direction if there is a
fourth number. -/
def SpecRow (ws : List Str) (v : Val × Val × Val × Val) : Prop :=
  ∃ a b c w r i, Num a w ∧ Num b r ∧ Num c i ∧
    ((ws = [a, b, c] ∧ v = (.fin w, .fin r, .fin i, .fin 0)) ∨
     ∃ d beta, ws = [a, b, c, d] ∧ Num d beta ∧ |beta| ≤ 6.283185 ∧
      v = (.fin w, .fin r, .fin i, .fin beta))

theorem spectrumRow_ok (l : Str) (ws : List Str) (v : Val × Val × Val × Val)
    (hl : splitBlank l = ws) (h : SpecRow ws v) : spectrumRow l = .ok v := by
  obtain ⟨a, b, c, w, r, i, ha, hb, hc, ⟨rfl, rfl⟩ | ⟨d, beta, rfl, hd, hbeta, rfl⟩⟩ := h
  · simp [spectrumRow, hl, num_read ha, num_read hb, num_read hc, beyond, twoPi]
    norm_num
  · rw [abs_le] at hbeta
    have h1 : ¬ twoPi < beta := by
      have : (6.283185 : ℚ) < twoPi := by norm_num [twoPi]
      linarith
    have h2 : ¬ beta < -twoPi := by
      have : (6.283185 : ℚ) < twoPi := by norm_num [twoPi]
      linarith
    simp [spectrumRow, hl, num_read ha, num_read hb, num_read hc, num_read hd, beyond, h1, h2]

/-- C97: a spectrum of two or more lines, each a frequency, a complex amplitude and possibly a
direction, is read as it is written, provided that it begins with the frequency zero. -/
theorem C97_spectrum (fs : Str → Option Str) (folder txt : Str) (rows : List (List Str))
    (vals : List (Val × Val × Val × Val))
    (hf : fs (pathIn folder "wave_frequencies.txt".toList) = some txt)
    (hr : List.Forall₂ Row (fileLines txt) rows) (hv : List.Forall₂ SpecRow rows vals)
    (h2 : 2 ≤ rows.length) :
    spectrum fs folder = if (vals.map (·.1)).head? = some (.fin 0) then .ok vals
      else .error .value := by
  have hlen : (fileLines txt).length = rows.length := hr.length_eq
  have hm := forall2_rtrim spectrumRow _ rows vals hr SpecRow hv spectrumRow_ok
  have hs : spectrumFile (lines txt) = .ok vals := by
    unfold spectrumFile lines
    rw [if_neg (by simp; omega), hm]
  have hvl : vals.length = rows.length := hv.length_eq.symm
  obtain ⟨v, vs, rfl⟩ : ∃ v vs, vals = v :: vs := by
    cases vals with
    | nil => simp at hvl; omega
    | cons v vs => exact ⟨v, vs, rfl⟩
  have hload : load fs (pathIn folder "wave_frequencies.txt".toList) = .ok (lines txt) := by
    unfold load; rw [hf]
  unfold spectrum
  rw [hload]
  show (spectrumFile (lines txt) >>= _) = _
  rw [hs]
  obtain ⟨w, rest⟩ := v
  show (if w = .fin 0 then Except.ok ((w, rest) :: vs) else Except.error Err.value) = _
  by_cases hw : w = .fin 0
  · rw [if_pos hw, if_pos (by simp [hw])]
  · rw [if_neg hw, if_neg (by simp [hw])]

/-- What is wrong in a line of the spectrum: too few numbers, a word that is no number, or a direction
of more than a turn. -/
def BadSpecRow (ws : List Str) : Prop :=
  ws.length < 3 ∨ (∃ w ∈ ws.take 3, NotNum w) ∨
    ∃ a b c d beta, ws = [a, b, c, d] ∧ Num d beta ∧ 6.283186 ≤ |beta|

/-- C97: a spectrum of which one line is wrong is refused. -/
theorem C97_spectrum_refused (fs : Str → Option Str) (folder txt : Str) (rows : List (List Str))
    (hf : fs (pathIn folder "wave_frequencies.txt".toList) = some txt)
    (hr : List.Forall₂ Row (fileLines txt) rows) (ws : List Str) (hm : ws ∈ rows)
    (hb : BadSpecRow ws) : spectrum fs folder = .error .input := by
  have hall : ∀ l e, spectrumRow l = .error e → e = .input := by
    intro l e h
    unfold spectrumRow at h
    dsimp only at h
    split at h
    · split at h
      · split at h
        · cases h; rfl
        · cases h
      · cases h; rfl
    · cases h; rfl
  have hbad : ∀ l, splitBlank l = ws → spectrumRow l = .error .input := by
    intro l hl
    unfold spectrumRow
    rw [hl]
    rcases hb with hb | ⟨w, hw, hn⟩ | ⟨a, b, c, d, beta, rfl, hd, hbeta⟩
    · rcases ws with _ | ⟨a, _ | ⟨b, _ | ⟨c, ws⟩⟩⟩
      · rfl
      · rfl
      · rfl
      · simp at hb; omega
    · have hnone := notNum_read hn
      rcases ws with _ | ⟨a, _ | ⟨b, _ | ⟨c, ws⟩⟩⟩
      · rfl
      · rfl
      · rfl
      · dsimp only
        split
        · next h1 h2 h3 h4 =>
          simp only [List.take_succ_cons, List.take_zero, List.mem_cons, List.not_mem_nil,
            or_false] at hw
          rcases hw with rfl | rfl | rfl
          · rw [hnone] at h1; cases h1
          · rw [hnone] at h2; cases h2
          · rw [hnone] at h3; cases h3
        · rfl
    · dsimp only
      split
      · next b' h1 h2 h3 h4 =>
        rw [num_read hd] at h4
        cases h4
        have : beyond (.fin beta) = true := by
          have h6 : twoPi < (6.283186 : ℚ) := by norm_num [twoPi]
          simp only [beyond, Bool.or_eq_true, decide_eq_true_eq]
          rcases le_abs.1 hbeta with h | h
          · left; linarith
          · right; linarith
        rw [if_pos this]
      · rfl
  have hex : ∃ l ∈ fileLines txt, Row l ws := by
    clear hf
    generalize fileLines txt = ls at hr
    induction hr with
    | nil => cases hm
    | cons h _ ih =>
      rcases List.mem_cons.1 hm with rfl | hm
      · exact ⟨_, by simp, h⟩
      · obtain ⟨l, hl, hr⟩ := ih hm
        exact ⟨l, by simp [hl], hr⟩
  obtain ⟨l, hl, hrow⟩ := hex
  have hmap : ((fileLines txt).map rtrim).mapM spectrumRow = .error .input := by
    apply mapM_bad spectrumRow _ .input (rtrim l) (List.mem_map_of_mem hl)
      ⟨_, hbad _ (row_split hrow)⟩
    intro x _ e h
    exact hall x e h
  unfold spectrum load
  rw [hf]
  show (spectrumFile (lines txt) >>= _) = _
  unfold spectrumFile lines
  split
  · rfl
  · rw [hmap]; rfl

/-- C97, false: in a line with five words or more the direction is lost. -/
theorem C97_direction_false (l : Str) (a b c d e : Str) (rest : List Str) (w r i beta : ℚ)
    (hl : Row l (a :: b :: c :: d :: e :: rest)) (ha : Num a w) (hb : Num b r) (hc : Num c i)
    (hd : Num d beta) : spectrumRow (rtrim l) = .ok (.fin w, .fin r, .fin i, .fin 0) := by
  simp [spectrumRow, row_split hl, num_read ha, num_read hb, num_read hc, beyond, twoPi]
  norm_num

/-! ## The elevation -/

/-- A sample as documented: time and elevation; what follows is ignored. -/
def ElevRow (ws : List Str) (v : Val × Val) : Prop :=
  ∃ a b rest t z, ws = a :: b :: rest ∧ Num a t ∧ Num b z ∧ v = (.fin t, .fin z)

theorem elevationRow_ok (l : Str) (ws : List Str) (v : Val × Val) (hl : splitBlank l = ws)
    (h : ElevRow ws v) : elevationRow l = .ok v := by
  obtain ⟨a, b, rest, t, z, rfl, ha, hb, rfl⟩ := h
  unfold elevationRow
  rw [hl]
  show (stod a >>= _) = _
  rw [num_stod ha]
  show (stod b >>= _) = _
  rw [num_stod hb]
  rfl

/-- C97: a record of the elevation is read as it is written. -/
theorem C97_elevation (fs : Str → Option Str) (folder txt : Str) (rows : List (List Str))
    (vals : List (Val × Val)) (hf : fs (pathIn folder "wave_elevation.txt".toList) = some txt)
    (hr : List.Forall₂ Row (fileLines txt) rows) (hv : List.Forall₂ ElevRow rows vals)
    (hne : rows ≠ []) : elevation fs folder = .ok vals := by
  have hm := forall2_rtrim elevationRow _ rows vals hr ElevRow hv elevationRow_ok
  have hvn : vals ≠ [] := by
    rintro rfl
    cases hv
    exact hne rfl
  unfold elevation load
  rw [hf]
  show (List.mapM elevationRow ((fileLines txt).map rtrim) >>= _) = _
  rw [hm]
  show (if vals = [] then _ else _) = _
  rw [if_neg hvn]

/-- C97: a line with fewer than two words (a blank one, for example) is an error of the input; a word
that is no number is an exception of the standard library. -/
theorem C97_elevation_refused (fs : Str → Option Str) (folder txt : Str) (pre : List Str) (l : Str)
    (post : List Str) (hf : fs (pathIn folder "wave_elevation.txt".toList) = some txt)
    (hl : fileLines txt = pre ++ l :: post) (hp : ∀ p ∈ pre, ∃ ws v, Row p ws ∧ ElevRow ws v)
    (ws : List Str) (hw : Row l ws) :
    (ws.length < 2 → elevation fs folder = .error .input) ∧
    ((∃ a b rest, ws = a :: b :: rest ∧ (NotNum a ∨ (∃ t, Num a t) ∧ NotNum b)) →
      elevation fs folder = .error .std) := by
  have key : ∀ e, elevationRow (rtrim l) = .error e → elevation fs folder = .error e := by
    intro e he
    unfold elevation load
    rw [hf]
    show (List.mapM elevationRow ((fileLines txt).map rtrim) >>= _) = _
    rw [hl, List.map_append, List.map_cons, mapM_first elevationRow _ _ _ e ?_ he]
    · rfl
    · intro x hx
      obtain ⟨p, hpm, rfl⟩ := List.mem_map.1 hx
      obtain ⟨ws, v, h1, h2⟩ := hp p hpm
      exact ⟨v, elevationRow_ok _ ws v (row_split h1) h2⟩
  constructor
  · intro h
    apply key
    unfold elevationRow
    rw [row_split hw]
    rcases ws with _ | ⟨a, _ | ⟨b, ws⟩⟩
    · rfl
    · rfl
    · simp at h
  · rintro ⟨a, b, rest, rfl, h⟩
    apply key
    unfold elevationRow
    rw [row_split hw]
    show (stod a >>= _) = _
    rcases h with ha | ⟨⟨t, ha⟩, hb⟩
    · rw [stod, notNum_read ha]; rfl
    · rw [num_stod ha]
      show (stod b >>= _) = _
      rw [stod, notNum_read hb]; rfl

/-- C97, false: of an empty record the last time is asked for all the same, which is undefined. -/
theorem C97_empty_false (fs : Str → Option Str) (folder : Str)
    (hf : fs (pathIn folder "wave_elevation.txt".toList) = some []) :
    elevation fs folder = .error .undef := by
  unfold elevation load
  rw [hf]
  rfl

/-! ## The steady current -/

/-- A line of the profile as documented: height and velocity; the last components may be left out. -/
def SteadyRow (ws : List Str) (v : Val × Val × Val × Val) : Prop :=
  ∃ a b z ux, Num a z ∧ Num b ux ∧
    ((ws = [a, b] ∧ v = (.fin z, .fin ux, .fin 0, .fin 0)) ∨
     (∃ c uy, ws = [a, b, c] ∧ Num c uy ∧ v = (.fin z, .fin ux, .fin uy, .fin 0)) ∨
     ∃ c d rest uy uz, ws = a :: b :: c :: d :: rest ∧ Num c uy ∧ Num d uz ∧
      v = (.fin z, .fin ux, .fin uy, .fin uz))

theorem steadyRow_ok (l : Str) (ws : List Str) (v : Val × Val × Val × Val)
    (hl : splitBlank l = ws) (h : SteadyRow ws v) : steadyRow l = .ok v := by
  obtain ⟨a, b, z, ux, ha, hb, h⟩ := h
  unfold steadyRow
  rw [hl]
  rcases h with ⟨rfl, rfl⟩ | ⟨c, uy, rfl, hc, rfl⟩ | ⟨c, d, rest, uy, uz, rfl, hc, hd, rfl⟩
  · simp only [num_stod ha, num_stod hb]
    rfl
  · simp only [num_stod ha, num_stod hb, List.getElem?_cons_zero, num_stod hc]
    rfl
  · simp only [num_stod ha, num_stod hb, List.getElem?_cons_zero, List.getElem?_cons_succ,
      num_stod hc, num_stod hd]
    rfl

theorem forall2_drop {α β : Type} {R : α → β → Prop} {l : List α} {r : List β}
    (h : List.Forall₂ R l r) (n : ℕ) : List.Forall₂ R (l.drop n) (r.drop n) :=
  List.forall₂_drop n h

/-- C97: below three lines of text, a profile of the current is read as it is written. -/
theorem C97_steady (fs : Str → Option Str) (folder txt : Str) (rows : List (List Str))
    (vals : List (Val × Val × Val × Val))
    (hf : fs (pathIn folder "current_profile.txt".toList) = some txt)
    (hr : List.Forall₂ Row ((fileLines txt).drop 3) rows) (hv : List.Forall₂ SteadyRow rows vals)
    (hne : rows ≠ []) : steady fs folder = .ok vals := by
  have hm := forall2_rtrim steadyRow _ rows vals hr SteadyRow hv steadyRow_ok
  have hlen := hr.length_eq
  have : 0 < rows.length := List.length_pos_iff.2 hne
  rw [List.length_drop] at hlen
  unfold steady load
  rw [hf]
  show (if (lines txt).length < 4 then _ else _) = _
  rw [if_neg (by unfold lines; simp; omega)]
  unfold lines
  rw [← List.map_drop, hm]

/-- C97: a line of one word or none is an error of the input, and so is a file without profile. -/
theorem C97_steady_refused (fs : Str → Option Str) (folder txt : Str)
    (hf : fs (pathIn folder "current_profile.txt".toList) = some txt) :
    ((fileLines txt).length < 4 → steady fs folder = .error .input) ∧
    ∀ pre l post ws, (fileLines txt).drop 3 = pre ++ l :: post →
      (∀ p ∈ pre, ∃ ws v, Row p ws ∧ SteadyRow ws v) → Row l ws → ws.length < 2 →
      steady fs folder = .error .input := by
  have h0 : steady fs folder = if (lines txt).length < 4 then .error .input
      else ((lines txt).drop 3).mapM steadyRow := by
    unfold steady load
    rw [hf]
    rfl
  constructor
  · intro h
    rw [h0, if_pos (by unfold lines; simpa using h)]
  · intro pre l post ws hl hp hw h
    rw [h0]
    split
    · rfl
    · unfold lines
      rw [← List.map_drop, hl, List.map_append, List.map_cons,
        mapM_first steadyRow _ _ _ .input ?_ ?_]
      · intro x hx
        obtain ⟨p, hpm, rfl⟩ := List.mem_map.1 hx
        obtain ⟨ws, v, h1, h2⟩ := hp p hpm
        exact ⟨v, steadyRow_ok _ ws v (row_split h1) h2⟩
      · unfold steadyRow
        rw [row_split hw]
        rcases ws with _ | ⟨a, _ | ⟨b, ws⟩⟩
        · rfl
        · rfl
        · simp at h

/-! ## The current that changes in time -/

/-- A line of the profile as documented for `nz` depths: the time, the components along the first axis
by depth, then possibly those along the second and the third. -/
def DynRow (nz : ℕ) (ws : List Str) (v : Val × List Val × List Val × List Val) : Prop :=
  ∃ a t wx, ∃ ux : List ℚ, Num a t ∧ List.Forall₂ Num wx ux ∧ wx.length = nz ∧
    ((ws = a :: wx ∧
      v = (.fin t, ux.map .fin, List.replicate nz (.fin 0), List.replicate nz (.fin 0))) ∨
     (∃ wy uy, List.Forall₂ Num wy uy ∧ wy.length = nz ∧ ws = a :: (wx ++ wy) ∧
      v = (.fin t, ux.map .fin, uy.map .fin, List.replicate nz (.fin 0))) ∨
     ∃ wy uy wz uz rest, List.Forall₂ Num wy uy ∧ wy.length = nz ∧ List.Forall₂ Num wz uz ∧
      wz.length = nz ∧ ws = a :: (wx ++ wy ++ wz ++ rest) ∧
      v = (.fin t, ux.map .fin, uy.map .fin, uz.map .fin))

theorem nums_stod {ws : List Str} {qs : List ℚ} (h : List.Forall₂ Num ws qs) :
    ws.mapM stod = .ok (qs.map .fin) := by
  apply mapM_ok
  induction h with
  | nil => exact .nil
  | cons h _ ih => exact .cons (num_stod h) ih

theorem component_ok (nz k : ℕ) (a : Str) (pre w post : List Str) (q : List ℚ)
    (hp : pre.length = k * nz) (hw : w.length = nz) (h : List.Forall₂ Num w q) :
    component nz k (a :: (pre ++ w ++ post)) = .ok (q.map .fin) := by
  unfold component
  rw [if_pos (by simp [hp, hw]; ring_nf; omega)]
  rw [List.drop_succ_cons, List.append_assoc, ← hp, List.drop_left, ← hw, List.take_left]
  exact nums_stod h

theorem component_short (nz k : ℕ) (e : List Str) (h : e.length < (k + 1) * nz + 1) :
    component nz k e = .ok (List.replicate nz (.fin 0)) := by
  unfold component
  rw [if_neg (by omega)]
  rfl

theorem dynamicRow_eq (nz : ℕ) (l : Str) (a : Str) (t : ℚ) (rest : List Str) (ux uy uz : List Val)
    (hl : splitBlank l = a :: rest) (hn : nz ≤ rest.length) (ha : Num a t)
    (hx : component nz 0 (a :: rest) = .ok ux) (hy : component nz 1 (a :: rest) = .ok uy)
    (hz : component nz 2 (a :: rest) = .ok uz) : dynamicRow nz l = .ok (.fin t, ux, uy, uz) := by
  unfold dynamicRow
  simp only [hl, num_stod ha, hx, hy, hz]
  rw [if_neg (by simp; omega)]
  rfl

theorem dynamicRow_ok (nz : ℕ) (hz : 0 < nz) (l : Str) (ws : List Str)
    (v : Val × List Val × List Val × List Val) (hl : splitBlank l = ws) (h : DynRow nz ws v) :
    dynamicRow nz l = .ok v := by
  obtain ⟨a, t, wx, ux, ha, hx, hwx, h⟩ := h
  rcases h with ⟨rfl, rfl⟩ | ⟨wy, uy, hy, hwy, rfl, rfl⟩ |
    ⟨wy, uy, wz, uz, rest, hy, hwy, hzz, hwz, rfl, rfl⟩
  · refine dynamicRow_eq nz l a t _ _ _ _ hl (by omega) ha ?_ ?_ ?_
    · have := component_ok nz 0 a [] wx [] ux (by simp) hwx hx
      simpa using this
    · exact component_short _ _ _ (by simp [hwx]; omega)
    · exact component_short _ _ _ (by simp [hwx]; omega)
  · refine dynamicRow_eq nz l a t _ _ _ _ hl (by simp; omega) ha ?_ ?_ ?_
    · have := component_ok nz 0 a [] wx wy ux (by simp) hwx hx
      simpa using this
    · have := component_ok nz 1 a wx wy [] uy (by simp [hwx]) hwy hy
      simpa using this
    · exact component_short _ _ _ (by simp [hwx, hwy]; omega)
  · refine dynamicRow_eq nz l a t _ _ _ _ hl (by simp; omega) ha ?_ ?_ ?_
    · have := component_ok nz 0 a [] wx (wy ++ wz ++ rest) ux (by simp) hwx hx
      simpa using this
    · have := component_ok nz 1 a wx wy (wz ++ rest) uy (by simp [hwx]) hwy hy
      simpa using this
    · have := component_ok nz 2 a (wx ++ wy) wz rest uz (by simp [hwx, hwy]; omega) hwz hzz
      simpa using this

/-- C97: with the depths in the fifth line and the velocities from the seventh on, a profile that
changes in time is read as it is written. -/
theorem C97_dynamic (fs : Str → Option Str) (folder txt : Str) (l4 : Str) (dw : List Str)
    (zs : List ℚ) (rows : List (List Str)) (vals : List (Val × List Val × List Val × List Val))
    (hf : fs (pathIn folder "current_profile_dynamic.txt".toList) = some txt)
    (h4 : (fileLines txt)[4]? = some l4) (hd : Row l4 dw) (hz : List.Forall₂ Num dw zs)
    (hzn : zs ≠ []) (hr : List.Forall₂ Row ((fileLines txt).drop 6) rows)
    (hv : List.Forall₂ (DynRow zs.length) rows vals) (hne : rows ≠ []) :
    dynamic fs folder = .ok (zs.map .fin, vals) := by
  have hpos : 0 < zs.length := List.length_pos_iff.2 hzn
  have hm := forall2_rtrim (dynamicRow zs.length) _ rows vals hr (DynRow zs.length) hv
    (dynamicRow_ok zs.length hpos)
  have hlen := hr.length_eq
  have : 0 < rows.length := List.length_pos_iff.2 hne
  rw [List.length_drop] at hlen
  have hg : (lines txt).getD 4 [] = rtrim l4 := by
    unfold lines
    simp [List.getD, h4]
  unfold dynamic load
  rw [hf]
  show (if (lines txt).length < 7 then _ else _) = _
  rw [if_neg (by unfold lines; simp; omega), hg, row_split hd, nums_stod hz]
  show (List.mapM (dynamicRow (zs.map Val.fin).length) ((lines txt).drop 6) >>= _) = _
  unfold lines
  rw [← List.map_drop, List.length_map, hm]
  show (if zs.map Val.fin = [] then _ else _) = _
  rw [if_neg (by simpa using hzn)]

/-- C97: a line that lacks some of the components along the first axis is an error of the input, and so is a file without
profile. -/
theorem C97_dynamic_refused (fs : Str → Option Str) (folder txt : Str)
    (hf : fs (pathIn folder "current_profile_dynamic.txt".toList) = some txt) :
    ((fileLines txt).length < 7 → dynamic fs folder = .error .input) ∧
    ∀ l4 dw, ∀ zs : List ℚ, ∀ pre l post ws, (fileLines txt)[4]? = some l4 → Row l4 dw → List.Forall₂ Num dw zs → zs ≠ [] →
      (fileLines txt).drop 6 = pre ++ l :: post → (∀ p ∈ pre, ∃ ws v, Row p ws ∧ DynRow zs.length ws v) →
      Row l ws → ws.length < zs.length + 1 → dynamic fs folder = .error .input := by
  constructor
  · intro h
    unfold dynamic load
    rw [hf]
    show (if (lines txt).length < 7 then _ else _) = _
    rw [if_pos (by unfold lines; simpa using h)]
  · intro l4 dw zs pre l post ws h4 hd hz hzn hl hp hw h
    have hpos : 0 < zs.length := List.length_pos_iff.2 hzn
    have hg : (lines txt).getD 4 [] = rtrim l4 := by
      unfold lines
      simp [List.getD, h4]
    have hlen : 7 ≤ (fileLines txt).length := by
      have := congrArg List.length hl
      simp at this
      omega
    unfold dynamic load
    rw [hf]
    show (if (lines txt).length < 7 then _ else _) = _
    rw [if_neg (by unfold lines; simp; omega), hg, row_split hd, nums_stod hz]
    show (List.mapM (dynamicRow (zs.map Val.fin).length) ((lines txt).drop 6) >>= _) = _
    unfold lines
    rw [← List.map_drop, List.length_map, hl, List.map_append, List.map_cons,
      mapM_first (dynamicRow zs.length) _ _ _ .input ?_ ?_]
    · rfl
    · intro x hx
      obtain ⟨p, hpm, rfl⟩ := List.mem_map.1 hx
      obtain ⟨ws, v, h1, h2⟩ := hp p hpm
      exact ⟨v, dynamicRow_ok zs.length hpos _ ws v (row_split h1) h2⟩
    · unfold dynamicRow
      rw [row_split hw]
      rcases ws with _ | ⟨a, ws⟩
      · rfl
      · simp only
        rw [if_pos (by omega)]

/-- A line with one velocity for two depths. -/
example : ((["0", "1.5"] : List String).map String.toList).length < ([-1, -2] : List ℚ).length + 1 := by decide

/-- C97, false: a line that lacks some of the components along the second axis is not refused: all of
them are taken to be zero. -/
theorem C97_short_line_false (nz : ℕ) (l a : Str) (t : ℚ) (wx wy : List Str) (ux : List ℚ)
    (hl : Row l (a :: (wx ++ wy))) (ha : Num a t) (hx : List.Forall₂ Num wx ux)
    (hwx : wx.length = nz) (h0 : 0 < wy.length) (h1 : wy.length < nz) :
    dynamicRow nz (rtrim l) =
      .ok (.fin t, ux.map .fin, List.replicate nz (.fin 0), List.replicate nz (.fin 0)) := by
  refine dynamicRow_eq nz _ a t _ _ _ _ (row_split hl) (by simp; omega) ha ?_ ?_ ?_
  · have := component_ok nz 0 a [] wx wy ux (by simp) hwx hx
    simpa using this
  · exact component_short _ _ _ (by simp [hwx]; omega)
  · exact component_short _ _ _ (by simp [hwx]; omega)

/-! ## The grid of waves -/

/-- An axis as documented: a line that begins with the kind of axis, and a line with its numbers. -/
def AxisText (l1 l2 : Str) (a : Axis) : Prop :=
  ∃ code cs ws, Row l1 (code :: cs) ∧ Row l2 ws ∧
    ((code = ['0'] ∧ a = .single) ∨
     (code = ['1'] ∧ ws ≠ [] ∧ ∃ qs : List ℚ, List.Forall₂ Num ws qs ∧ a = .list (qs.map .fin)) ∨
     (code = ['2'] ∧ ∃ w1 w2 w3 rest first last n, ws = w1 :: w2 :: w3 :: rest ∧ Num w1 first ∧
      Num w2 last ∧ Count w3 n ∧ a = .lattice (.fin first) (.fin last) n))

theorem num_atof {w : Str} {q : ℚ} (h : Num w q) : atof w = .fin q := by
  simp [atof, num_read h]

theorem axisText_ok {l1 l2 : Str} {a : Axis} (h : AxisText l1 l2 a) :
    axisLines (rtrim l1) (rtrim l2) = .ok a := by
  obtain ⟨code, cs, ws, h1, h2, h⟩ := h
  unfold axisLines
  rw [row_split h1, row_split h2]
  rcases h with ⟨rfl, rfl⟩ | ⟨rfl, hne, qs, hq, rfl⟩ | ⟨rfl, w1, w2, w3, rest, f, l, n, rfl, ha, hb, hc, rfl⟩
  · have : Scheme.stoi ['0'] = .ok 0 := by decide
    simp only [this]
    rfl
  · have : Scheme.stoi ['1'] = .ok 1 := by decide
    have hm : ws.map atof = qs.map .fin := by
      clear hne h2
      induction hq with
      | nil => rfl
      | cons h _ ih => simp [num_atof h, ih]
    simp only [this]
    simp [axis, hne, hm]
  · have : Scheme.stoi ['2'] = .ok 2 := by decide
    simp only [this]
    show (stoul w3 >>= _) = _
    rw [count_stoul hc, num_atof ha, num_atof hb]
    rfl

/-- C97: the grid of waves is read as it is written, from the fourth to the ninth line. -/
theorem C97_grid (fs : Str → Option Str) (folder txt h1 h2 h3 x1 x2 y1 y2 z1 z2 : Str)
    (post : List Str) (x y z : Axis) (hf : fs (pathIn folder "water_grid.txt".toList) = some txt)
    (hl : fileLines txt = h1 :: h2 :: h3 :: x1 :: x2 :: y1 :: y2 :: z1 :: z2 :: post)
    (hx : AxisText x1 x2 x) (hy : AxisText y1 y2 y) (hz : AxisText z1 z2 z) :
    waterGrid fs folder = .ok (x, y, z) := by
  unfold waterGrid load
  rw [hf]
  show (if (lines txt).length < 9 then _ else _) = _
  unfold lines
  rw [hl, if_neg (by simp)]
  show (axisLines (rtrim x1) (rtrim x2) >>= _) = _
  rw [axisText_ok hx]
  show (axisLines (rtrim y1) (rtrim y2) >>= _) = _
  rw [axisText_ok hy]
  show (axisLines (rtrim z1) (rtrim z2) >>= _) = _
  rw [axisText_ok hz]
  rfl

theorem digits_stoul {w : Str} {n : ℕ} (hne : w ≠ []) (hd : ∀ c ∈ w, c ∈ "0123456789".toList)
    (hn : digits w = n) : stoul w = if 2 ^ 64 ≤ n then .error .std else .ok (n % 2 ^ 32) := by
  subst hn
  have d : ∀ c ∈ w, isDigit c = true := fun c hc => isDigit_of (hd c hc)
  have hs := digits_head d none [] hne
  simp only [signText, List.nil_append, List.append_nil] at hs
  have h0 : w.dropWhile isSpace = w := by
    obtain ⟨c, r, rfl⟩ := List.exists_cons_of_ne_nil hne
    have hc := d c (by simp)
    rw [List.dropWhile_cons_of_neg]
    intro h
    simp only [isSpace, Bool.or_eq_true, decide_eq_true_eq] at h
    rcases h with ((((rfl | rfl) | rfl) | rfl) | rfl) | rfl <;> revert hc <;> decide
  have htw : w.takeWhile isDigit = w := List.takeWhile_eq_self_iff.2 d
  unfold stoul
  rw [h0]
  simp only [hs, htw, natOf_digits]
  rw [if_neg (by simp [hne])]
  simp

/-- C97, false: a uniform axis of 2³² points and more is not refused: so many points are left out.  From 2⁶⁴ on it is. -/
theorem C97_many_false (l1 l2 w1 w2 w3 : Str) (cs rest : List Str) (first last : ℚ) (h1 : Row l1 (['2'] :: cs))
    (h2 : Row l2 (w1 :: w2 :: w3 :: rest)) (ha : Num w1 first) (hb : Num w2 last) (hne : w3 ≠ [])
    (hd : ∀ c ∈ w3, c ∈ "0123456789".toList) :
    axisLines (rtrim l1) (rtrim l2) = if 2 ^ 64 ≤ digits w3 then .error .std
      else .ok (.lattice (.fin first) (.fin last) (digits w3 % 2 ^ 32)) := by
  have : Scheme.stoi ['2'] = .ok 2 := by decide
  unfold axisLines
  rw [row_split h1, row_split h2]
  simp only [this]
  show (stoul w3 >>= _) = _
  rw [digits_stoul hne hd rfl, num_atof ha, num_atof hb]
  split_ifs <;> rfl

example : digits "4294967297".toList % 2 ^ 32 = 1 ∧ digits "18446744073709551615".toList < 2 ^ 64 ∧
    2 ^ 64 ≤ digits "18446744073709551616".toList := by decide +kernel

/-- C97, false: a grid of which the line with the kind of the first axis is blank, or the line of a
uniform axis has fewer than three words, is not refused: reading it is undefined. -/
theorem C97_grid_false (fs : Str → Option Str) (folder txt h1 h2 h3 x1 x2 y1 y2 z1 z2 : Str)
    (post : List Str) (hf : fs (pathIn folder "water_grid.txt".toList) = some txt)
    (hl : fileLines txt = h1 :: h2 :: h3 :: x1 :: x2 :: y1 :: y2 :: z1 :: z2 :: post) :
    (Row x1 [] → waterGrid fs folder = .error .undef) ∧
    ∀ cs ws, Row x1 (['2'] :: cs) → Row x2 ws → ws.length < 3 →
      waterGrid fs folder = .error .undef := by
  have key : ∀ e, axisLines (rtrim x1) (rtrim x2) = .error e → waterGrid fs folder = .error e := by
    intro e he
    unfold waterGrid load
    rw [hf]
    show (if (lines txt).length < 9 then _ else _) = _
    unfold lines
    rw [hl, if_neg (by simp)]
    show (axisLines (rtrim x1) (rtrim x2) >>= _) = _
    rw [he]
    rfl
  constructor
  · intro h
    apply key
    unfold axisLines
    rw [row_split h]
  · intro cs ws h hw hlt
    apply key
    unfold axisLines
    rw [row_split h, row_split hw]
    have : Scheme.stoi ['2'] = .ok 2 := by decide
    simp only [this]
    rcases ws with _ | ⟨a, _ | ⟨b, _ | ⟨c, ws⟩⟩⟩
    · rfl
    · rfl
    · rfl
    · simp at hlt; omega

/-! ## The current in space and time -/

/-- A line as documented: the coordinates, of which the text counts, and the velocity. -/
def Row4D (ws : List Str) (r : Waves.Row4 Str (Val × Val × Val)) : Prop :=
  ∃ x y z t a b c rest u v w, ws = x :: y :: z :: t :: a :: b :: c :: rest ∧ Num a u ∧ Num b v ∧
    Num c w ∧ r = ⟨x, y, z, t, .fin u, .fin v, .fin w⟩

theorem row4D_ok (l : Str) (ws : List Str) (r : Waves.Row4 Str (Val × Val × Val))
    (hl : splitBlank l = ws) (h : Row4D ws r) : row4D l = .ok r := by
  obtain ⟨x, y, z, t, a, b, c, rest, u, v, w, rfl, ha, hb, hc, rfl⟩ := h
  unfold row4D
  rw [hl]
  show (stod a >>= _) = _
  rw [num_stod ha]
  show (stod b >>= _) = _
  rw [num_stod hb]
  show (stod c >>= _) = _
  rw [num_stod hc]
  rfl

/-- The words of an axis: these numbers, and whatever follows. -/
def Axis4D (l : Str) (xs : List Str) : Prop :=
  ∃ rest, Row l (xs ++ rest) ∧ ∃ qs, List.Forall₂ Num xs qs

theorem axis4D_ok {l : Str} {xs : List Str} (h : Axis4D l xs) :
    axis4D xs.length (rtrim l) = .ok xs := by
  obtain ⟨rest, hr, qs, hq⟩ := h
  unfold axis4D
  rw [row_split hr]
  show (if (xs ++ rest).length < xs.length then _ else _) = _
  rw [if_neg (by simp), List.take_left, nums_stod hq]
  rfl

theorem foldl_other {V : Type} (xs ys zs ts : List Str) (rows : List (Waves.Row4 Str V))
    (g : Waves.Grid4 V) (i j k w : ℕ)
    (h : ∀ r ∈ rows, ¬ (i = Waves.axisIndex xs r.x ∧ j = Waves.axisIndex ys r.y ∧
      k = Waves.axisIndex zs r.z ∧ w = Waves.axisIndex ts r.t)) :
    rows.foldl (Waves.setRow xs ys zs ts) g i j k w = g i j k w := by
  induction rows generalizing g with
  | nil => rfl
  | cons r rows ih =>
    rw [List.foldl_cons, ih _ fun r' hr' => h r' (List.mem_cons_of_mem _ hr')]
    unfold Waves.setRow
    rw [if_neg (h r (by simp))]

/-- C97: a file of currents in space and time, with the numbers of coordinates, the coordinates and as
many lines as there are points in the grid, is accepted.  Every line of data but the first, provided
that its coordinates are written as in the axes and that no other line has them, gives the velocity at
its point.  What is missing: the first line of data is skipped, see `C97_first_line_false`, and
coordinates written in another way are not found, see `C97_example_false`. -/
theorem C97_4d_partial (fs : Str → Option Str) (folder txt l0 lx ly lz lt l5 : Str) (data : List Str)
    (a b c d : Str) (rest0 : List Str) (xs ys zs ts : List Str)
    (rows : List (List Str)) (vals : List (Waves.Row4 Str (Val × Val × Val)))
    (hf : fs (path4D folder) = some txt)
    (hl : fileLines txt = l0 :: lx :: ly :: lz :: lt :: l5 :: data)
    (h0 : Row l0 (a :: b :: c :: d :: rest0)) (ha : Count a xs.length) (hb : Count b ys.length)
    (hc : Count c zs.length) (hd : Count d ts.length)
    (hx : Axis4D lx xs) (hy : Axis4D ly ys) (hz : Axis4D lz zs) (ht : Axis4D lt ts)
    (hsize : xs.length * ys.length * zs.length * ts.length < 2 ^ 32)
    (hpos : 0 < xs.length * ys.length * zs.length * ts.length)
    (hr : List.Forall₂ Row data rows) (hv : List.Forall₂ Row4D rows vals) (hne : rows ≠ [])
    (hn : xs.length * ys.length * zs.length * ts.length ≤ rows.length + 1) :
    ∃ g, current4D fs folder = .ok ((xs, ys, zs, ts), g) ∧
      ∀ pre r post i j k w, vals = pre ++ r :: post → xs.Nodup → ys.Nodup → zs.Nodup → ts.Nodup →
        xs[i]? = some r.x → ys[j]? = some r.y → zs[k]? = some r.z → ts[w]? = some r.t →
        (∀ s ∈ post, s.x ∈ xs ∧ s.y ∈ ys ∧ s.z ∈ zs ∧ s.t ∈ ts ∧
          (s.x, s.y, s.z, s.t) ≠ (r.x, r.y, r.z, r.t)) → g i j k w = r.u := by
  have hm := forall2_rtrim row4D _ rows vals hr Row4D hv row4D_ok
  have hlen := hr.length_eq
  have h1 : 0 < rows.length := List.length_pos_iff.2 hne
  refine ⟨vals.foldl (Waves.setRow xs ys zs ts) (fun _ _ _ _ => (.fin 0, .fin 0, .fin 0)), ?_, ?_⟩
  · unfold current4D load
    rw [hf]
    show (if (lines txt).length < 7 then _ else _) = _
    unfold lines
    rw [hl, if_neg (by simp; omega)]
    simp only [List.map_cons, List.getD_cons_zero, List.getD_cons_succ, row_split h0]
    show (stoul a >>= _) = _
    rw [count_stoul ha]
    show (stoul b >>= _) = _
    rw [count_stoul hb]
    show (stoul c >>= _) = _
    rw [count_stoul hc]
    show (stoul d >>= _) = _
    rw [count_stoul hd]
    show (axis4D xs.length (rtrim lx) >>= _) = _
    rw [axis4D_ok hx]
    show (axis4D ys.length (rtrim ly) >>= _) = _
    rw [axis4D_ok hy]
    show (axis4D zs.length (rtrim lz) >>= _) = _
    rw [axis4D_ok hz]
    show (axis4D ts.length (rtrim lt) >>= _) = _
    rw [axis4D_ok ht]
    show (if (rtrim l0 :: rtrim lx :: rtrim ly :: rtrim lz :: rtrim lt :: rtrim l5 ::
      data.map rtrim).length < _ then _ else _) = _
    rw [if_neg (by rw [Nat.mod_eq_of_lt hsize]; simp; omega)]
    show (List.mapM row4D (data.map rtrim) >>= _) = _
    rw [hm]
    show (if xs.length * ys.length * zs.length * ts.length = 0 then _ else _) = _
    rw [if_neg (by omega)]
    rfl
  · rintro pre r post i j k w rfl nx ny nz nt hi hj hk hw hs
    rw [List.foldl_append, List.foldl_cons, foldl_other]
    · unfold Waves.setRow
      rw [if_pos ⟨(Waves.axisIndex_eq _ _ nx _ hi).symm, (Waves.axisIndex_eq _ _ ny _ hj).symm,
        (Waves.axisIndex_eq _ _ nz _ hk).symm, (Waves.axisIndex_eq _ _ nt _ hw).symm⟩]
    · rintro s hsm ⟨e1, e2, e3, e4⟩
      obtain ⟨m1, m2, m3, m4, hne⟩ := hs s hsm
      have inj : ∀ (l : List Str) (v : Str) (n : ℕ) (v' : Str), l.Nodup → l[n]? = some v → v' ∈ l →
          n = Waves.axisIndex l v' → v' = v := by
        intro l v n v' hnd hn hs' hax
        obtain ⟨m, hm, rfl⟩ := List.getElem_of_mem hs'
        rw [Waves.axisIndex_eq l _ hnd m (List.getElem?_eq_getElem hm)] at hax
        subst hax
        rw [List.getElem?_eq_getElem hm] at hn
        exact Option.some.inj hn
      apply hne
      rw [inj _ _ _ _ nx hi m1 e1, inj _ _ _ _ ny hj m2 e2, inj _ _ _ _ nz hk m3 e3,
        inj _ _ _ _ nt hw m4 e4]

/-- C97, false: the first line of data is not read: files that differ in nothing else give the same
currents, whatever they say there. -/
theorem C97_first_line_false (fs fs' : Str → Option Str) (folder txt txt' l0 lx ly lz lt l5 l5' : Str)
    (data : List Str) (hf : fs (path4D folder) = some txt) (hf' : fs' (path4D folder) = some txt')
    (hl : fileLines txt = l0 :: lx :: ly :: lz :: lt :: l5 :: data)
    (hl' : fileLines txt' = l0 :: lx :: ly :: lz :: lt :: l5' :: data) :
    current4D fs folder = current4D fs' folder := by
  unfold current4D load
  rw [hf, hf']
  show (if (lines txt).length < 7 then _ else _) = (if (lines txt').length < 7 then _ else _)
  unfold lines
  rw [hl, hl']
  rfl

/-- The text of lines. -/
def fileOf (ls : List String) : Str := ls.flatMap fun l => l.toList ++ ['\n']

/-- The example of the documentation. -/
def docs4D : Str := fileOf ["2 2 2 2", "-1 1", "-2 2", "-3 0", "0 15",
  "-1 -2 -3 0 0.0 0.0 0.0", "-1 -2 0 0 0.0 0.0 0.0", "-1 2 -3 0 0.0 0.0 0.0",
  "-1 2 0 0 0.0 0.0 0.0", "1 -2 -3 0 0.0 0.0 0.0", "1 -2 0 0 0.0 0.0 0.0",
  "1 2 -3 0 0.0 0.0 0.0", "1 2 0 0 0.0 0.0 0.0", "-1 -2 -3 15 -0.5 -0.5 0.0",
  "-1 -2 0 15 -1.0 -1.0 0.0", "-1 2 -3 15 -0.5 0.5 0.0", "-1 2 -0 15 -1.0 1.0 0.0",
  "1 -2 -3 15 0.5 -0.5 0.0", "1 -2 -0 15 1.0 -1.0 0.0", "1 2 -3 15 0.5 0.5 0.0",
  "1 2 -0 15 1.0 1.0 0.0"]

/-- What is read of it at one point. -/
def at4D (i j k w : ℕ) (txt : Str) : Option (Val × Val × Val) :=
  match current4D (fun _ => some txt) [] with
  | .ok r => some (r.2 i j k w)
  | .error _ => none

/-- C97, false: the example of the documentation is accepted but not read as it is written: a height
written `-0` in a line and `0` in the axis counts as the lowest height, so that at time 15 the current
at `(1, 2, 0)` is zero and the one at `(1, 2, -3)` is that of the surface. -/
theorem C97_example_false :
    at4D 1 1 1 1 docs4D = some (.fin 0, .fin 0, .fin 0) ∧
    at4D 1 1 0 1 docs4D = some (.fin 1, .fin 1, .fin 0) ∧
    at4D 0 0 1 1 docs4D = some (.fin (-1), .fin (-1), .fin 0) := by decide +kernel

/-! ## Concrete files -/

theorem row_of (l : Str) (ws : List Str)
    (h : split ' ' l = ws ∧ ∀ w ∈ ws, ∀ c ∈ w, isSpace c = false) : Row l ws :=
  ⟨l, [], by simp, by simp, by rw [← h.1]; exact C52_split_words ' ' l, h.2⟩

theorem num_digit (c : Char) (q : ℚ) (h : c ∈ "0123456789".toList ∧ ((c.toNat - 48 : ℕ) : ℚ) = q) :
    Num [c] q := by
  refine ⟨⟨none, [c], false, [], none⟩, ⟨by simpa using h.1, by simp, by simp, by simp, by simp⟩,
    by simp [Written.text, signText, exText], ?_⟩
  rw [← h.2]
  simp [Written.value, sgn, exValue, digits]

/-- A number with a sign, a point and an exponent, and a carriage return at the end of the line. -/
example : Num "-1.5e1".toList (-15) ∧ Row "0  -1.5e1 \r".toList ["0".toList, "-1.5e1".toList] := by
  constructor
  · refine ⟨⟨some true, "1".toList, true, "5".toList, some (false, none, "1".toList)⟩,
      ⟨by decide, by decide, by decide, by decide, by simp⟩, by decide, ?_⟩
    simp [Written.value, sgn, exValue, digits, Nat.ofDigits_cons]
    norm_num
  · exact ⟨"0  -1.5e1".toList, " \r".toList, by decide, by decide,
      by
        have := C52_split_words ' ' "0  -1.5e1".toList
        rwa [show split ' ' "0  -1.5e1".toList = ["0".toList, "-1.5e1".toList] by decide] at this,
      by decide⟩

/-- A spectrum of two components, the second with a direction. -/
example : spectrum (fun _ => some "0 1 2\n3 4 5 6\n".toList) [] =
    .ok [(.fin 0, .fin 1, .fin 2, .fin 0), (.fin 3, .fin 4, .fin 5, .fin 6)] := by
  rw [C97_spectrum _ _ "0 1 2\n3 4 5 6\n".toList
    [[['0'], ['1'], ['2']], [['3'], ['4'], ['5'], ['6']]]
    [(.fin 0, .fin 1, .fin 2, .fin 0), (.fin 3, .fin 4, .fin 5, .fin 6)] rfl ?_ ?_ (by simp)]
  · simp
  · rw [show fileLines "0 1 2\n3 4 5 6\n".toList = ["0 1 2".toList, "3 4 5 6".toList] by decide]
    exact .cons (row_of _ _ (by decide)) (.cons (row_of _ _ (by decide)) .nil)
  · refine .cons ⟨['0'], ['1'], ['2'], 0, 1, 2, num_digit _ _ (by decide +kernel),
      num_digit _ _ (by decide +kernel), num_digit _ _ (by decide +kernel), Or.inl ⟨rfl, rfl⟩⟩
      (.cons ⟨['3'], ['4'], ['5'], 3, 4, 5, num_digit _ _ (by decide +kernel),
      num_digit _ _ (by decide +kernel), num_digit _ _ (by decide +kernel),
      Or.inr ⟨['6'], 6, rfl, num_digit _ _ (by decide +kernel), by norm_num, rfl⟩⟩ .nil)

/-- A spectrum with a word that is no number, and one with a direction in degrees. -/
example : BadSpecRow ["0".toList, "1".toList, "x".toList] ∧ NotNum "x".toList ∧
    spectrum (fun _ => some "0 1 2\n3 4 x\n".toList) [] = .error .input ∧
    spectrum (fun _ => some "0 1 2\n3 4 5 9\n".toList) [] = .error .input :=
  ⟨Or.inr (Or.inl ⟨"x".toList, by decide, 'x', [], by decide⟩), ⟨'x', [], by decide⟩,
    by decide +kernel, by decide +kernel⟩

/-- Two samples of an elevation; a blank line at the end; a word that is no number. -/
example : elevation (fun _ => some "0 1\n2 3\n".toList) [] =
      .ok [(.fin 0, .fin 1), (.fin 2, .fin 3)] ∧
    elevation (fun _ => some "0 1\n\n".toList) [] = .error .input ∧
    elevation (fun _ => some "0 1\nx 3\n".toList) [] = .error .std := by
  refine ⟨?_, ?_, ?_⟩
  · refine C97_elevation _ _ _ [[['0'], ['1']], [['2'], ['3']]] _ rfl ?_ ?_ (by simp)
    · rw [show fileLines "0 1\n2 3\n".toList = ["0 1".toList, "2 3".toList] by decide]
      exact .cons (row_of _ _ (by decide)) (.cons (row_of _ _ (by decide)) .nil)
    · exact .cons ⟨_, _, [], 0, 1, rfl, num_digit _ _ (by decide +kernel),
        num_digit _ _ (by decide +kernel), rfl⟩ (.cons ⟨_, _, [], 2, 3, rfl,
        num_digit _ _ (by decide +kernel), num_digit _ _ (by decide +kernel), rfl⟩ .nil)
  · refine (C97_elevation_refused (fun _ => some "0 1\n\n".toList) [] "0 1\n\n".toList ["0 1".toList] [] [] rfl (by decide) ?_ []
      (row_of _ _ (by decide))).1 (by simp)
    intro p hp
    rw [List.mem_singleton.1 hp]
    exact ⟨[['0'], ['1']], _, row_of _ _ (by decide), _, _, [], 0, 1, rfl,
      num_digit _ _ (by decide +kernel), num_digit _ _ (by decide +kernel), rfl⟩
  · refine (C97_elevation_refused (fun _ => some "0 1\nx 3\n".toList) [] "0 1\nx 3\n".toList
      ["0 1".toList] "x 3".toList [] rfl (by decide) ?_
      [['x'], ['3']] (row_of _ _ (by decide))).2
      ⟨_, _, [], rfl, Or.inl ⟨'x', [], by decide⟩⟩
    intro p hp
    rw [List.mem_singleton.1 hp]
    exact ⟨[['0'], ['1']], _, row_of _ _ (by decide), _, _, [], 0, 1, rfl,
      num_digit _ _ (by decide +kernel), num_digit _ _ (by decide +kernel), rfl⟩

/-- A profile with a line of two columns and one of four. -/
example : steady (fun _ => some (fileOf ["a", "b", "c", "0 1", "2 3 4 5"])) [] =
    .ok [(.fin 0, .fin 1, .fin 0, .fin 0), (.fin 2, .fin 3, .fin 4, .fin 5)] := by
  refine C97_steady _ _ _ [[['0'], ['1']], [['2'], ['3'], ['4'], ['5']]] _ rfl ?_ ?_ (by simp)
  · rw [show (fileLines (fileOf ["a", "b", "c", "0 1", "2 3 4 5"])).drop 3 =
      ["0 1".toList, "2 3 4 5".toList] by decide]
    exact .cons (row_of _ _ (by decide)) (.cons (row_of _ _ (by decide)) .nil)
  · exact .cons ⟨_, _, 0, 1, num_digit _ _ (by decide +kernel), num_digit _ _ (by decide +kernel),
      Or.inl ⟨rfl, rfl⟩⟩ (.cons ⟨_, _, 2, 3, num_digit _ _ (by decide +kernel),
      num_digit _ _ (by decide +kernel), Or.inr (Or.inr ⟨_, _, [], 4, 5, rfl,
      num_digit _ _ (by decide +kernel), num_digit _ _ (by decide +kernel), rfl⟩)⟩ .nil)

example : steady (fun _ => some (fileOf ["a", "b", "c", "0 1", "2"])) [] = .error .input ∧
    steady (fun _ => some (fileOf ["a", "b", "c"])) [] = .error .input := by decide +kernel

/-- Two depths, a line with all velocities along two axes, and one with some of the second. -/
example : dynamic (fun _ => some (fileOf ["a", "b", "c", "d", "7 0", "e", "0 1 2 3 4"])) [] =
      .ok ([.fin 7, .fin 0], [(.fin 0, [.fin 1, .fin 2], [.fin 3, .fin 4], [.fin 0, .fin 0])]) ∧
    dynamicRow 2 "0 1 2 3".toList =
      .ok (.fin 0, [.fin 1, .fin 2], [.fin 0, .fin 0], [.fin 0, .fin 0]) := by
  constructor
  · refine C97_dynamic _ _ _ "7 0".toList [['7'], ['0']] [7, 0] [[['0'], ['1'], ['2'], ['3'], ['4']]]
      _ rfl (by decide) (row_of _ _ (by decide)) (.cons (num_digit _ _ (by decide +kernel))
      (.cons (num_digit _ _ (by decide +kernel)) .nil)) (by simp) ?_ ?_ (by simp)
    · rw [show (fileLines (fileOf ["a", "b", "c", "d", "7 0", "e", "0 1 2 3 4"])).drop 6 =
        ["0 1 2 3 4".toList] by decide]
      exact .cons (row_of _ _ (by decide)) .nil
    · exact .cons ⟨['0'], 0, [['1'], ['2']], [1, 2], num_digit _ _ (by decide +kernel),
        .cons (num_digit _ _ (by decide +kernel)) (.cons (num_digit _ _ (by decide +kernel)) .nil),
        rfl, Or.inr (Or.inl ⟨[['3'], ['4']], [3, 4], .cons (num_digit _ _ (by decide +kernel))
        (.cons (num_digit _ _ (by decide +kernel)) .nil), rfl, rfl, rfl⟩)⟩ .nil
  · exact C97_short_line_false 2 "0 1 2 3".toList ['0'] 0 [['1'], ['2']] [['3']] [1, 2]
      (row_of _ _ (by decide)) (num_digit _ _ (by decide +kernel))
      (.cons (num_digit _ _ (by decide +kernel)) (.cons (num_digit _ _ (by decide +kernel)) .nil))
      rfl (by simp) (by simp)

/-- A grid with an axis of each kind, and one of which the kind of an axis is missing. -/
example : waterGrid (fun _ => some (fileOf ["a", "b", "c", "0 - x", "", "1 - y", "1 3", "2 - z",
      "0 9 4"])) [] = .ok (.single, .list [.fin 1, .fin 3], .lattice (.fin 0) (.fin 9) 4) ∧
    waterGrid (fun _ => some (fileOf ["a", "b", "c", "", "", "1 - y", "1 3", "2 - z", "0 9 4"])) [] =
      .error .undef := by
  constructor
  · exact C97_grid _ _ _ ['a'] ['b'] ['c'] "0 - x".toList [] "1 - y".toList "1 3".toList "2 - z".toList
      "0 9 4".toList [] _ _ _ rfl (by decide)
      ⟨['0'], [['-'], ['x']], [], row_of _ _ (by decide), row_of _ _ (by decide),
        Or.inl ⟨rfl, rfl⟩⟩
      ⟨['1'], [['-'], ['y']], [['1'], ['3']], row_of _ _ (by decide), row_of _ _ (by decide),
        Or.inr (Or.inl ⟨rfl, by simp, [1, 3], .cons (num_digit _ _ (by decide +kernel))
        (.cons (num_digit _ _ (by decide +kernel)) .nil), rfl⟩)⟩
      ⟨['2'], [['-'], ['z']], [['0'], ['9'], ['4']], row_of _ _ (by decide), row_of _ _ (by decide),
        Or.inr (Or.inr ⟨rfl, _, _, _, [], 0, 9, 4, rfl, num_digit _ _ (by decide +kernel),
        num_digit _ _ (by decide +kernel), ⟨by simp, by decide, by decide, by decide⟩, rfl⟩)⟩
  · exact (C97_grid_false (fun _ => some (fileOf ["a", "b", "c", "", "", "1 - y", "1 3", "2 - z",
      "0 9 4"])) [] (fileOf ["a", "b", "c", "", "", "1 - y", "1 3", "2 - z", "0 9 4"]) ['a'] ['b'] ['c']
      [] [] "1 - y".toList "1 3".toList "2 - z".toList "0 9 4".toList [] rfl (by decide)).1 (row_of _ _ (by decide))

/-- Two times at one place: the second line of data gives the velocity at its time. -/
example : ∃ g, current4D (fun _ => some (fileOf ["1 1 1 2", "0", "0", "0", "0 5",
      "0 0 0 0 1 2 3", "0 0 0 5 4 5 6"])) [] =
      .ok (([['0']], [['0']], [['0']], [['0'], ['5']]), g) ∧
    g 0 0 0 1 = (.fin 4, .fin 5, .fin 6) := by
  have h0 : Axis4D "0".toList [['0']] := ⟨[], row_of _ _ (by decide), [0],
    .cons (num_digit _ _ (by decide +kernel)) .nil⟩
  have c1 : Count ['1'] 1 := ⟨by simp, by decide, by decide, by decide⟩
  obtain ⟨g, hg, h⟩ := C97_4d_partial (fun _ => some (fileOf ["1 1 1 2", "0", "0", "0", "0 5",
      "0 0 0 0 1 2 3", "0 0 0 5 4 5 6"])) [] _ "1 1 1 2".toList "0".toList "0".toList "0".toList
    "0 5".toList "0 0 0 0 1 2 3".toList ["0 0 0 5 4 5 6".toList] ['1'] ['1'] ['1'] ['2'] [] [['0']]
    [['0']] [['0']] [['0'], ['5']] [[['0'], ['0'], ['0'], ['5'], ['4'], ['5'], ['6']]]
    [⟨['0'], ['0'], ['0'], ['5'], .fin 4, .fin 5, .fin 6⟩] rfl (by decide) (row_of _ _ (by decide))
    c1 c1 c1 ⟨by simp, by decide, by decide, by decide⟩ h0 h0 h0
    ⟨[], row_of _ _ (by decide), [0, 5], .cons (num_digit _ _ (by decide +kernel))
      (.cons (num_digit _ _ (by decide +kernel)) .nil)⟩ (by simp) (by simp)
    (.cons (row_of _ _ (by decide)) .nil)
    (.cons ⟨_, _, _, _, _, _, _, [], 4, 5, 6, rfl, num_digit _ _ (by decide +kernel),
      num_digit _ _ (by decide +kernel), num_digit _ _ (by decide +kernel), rfl⟩ .nil)
    (by simp) (by simp)
  exact ⟨g, hg, h [] _ [] 0 0 0 1 rfl (by simp) (by simp) (by simp) (by simp) rfl rfl rfl rfl
    (by simp)⟩

end MD.SeaFiles
