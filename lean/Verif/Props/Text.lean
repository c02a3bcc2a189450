import Mathlib.Tactic.Ring
import Mathlib.Tactic.NormNum
import Mathlib.Tactic.IntervalCases
import Mathlib.Data.List.TakeWhile
import Verif.Model.Text

/-!
# Text utilities (C52)
-/

set_option linter.unusedSimpArgs false
set_option linter.unusedVariables false

namespace MD.Text

/-! ## Characters -/

theorem char_eq (c : Char) (n : ℕ) (h : c.toNat = n) : c = Char.ofNat n := by
  rw [← h, Char.ofNat_toNat]

/-- C52: the letters, digits and blanks are those of ASCII. -/
theorem C52_characters (c : Char) :
    (isUpper c = true ↔ c ∈ "ABCDEFGHIJKLMNOPQRSTUVWXYZ".toList) ∧
    (isLower c = true ↔ c ∈ "abcdefghijklmnopqrstuvwxyz".toList) ∧
    (isAlpha c = true ↔ c ∈ "ABCDEFGHIJKLMNOPQRSTUVWXYZ".toList ∨
      c ∈ "abcdefghijklmnopqrstuvwxyz".toList) ∧
    (isDigit c = true ↔ c ∈ "0123456789".toList) ∧
    (isSpace c = true ↔ c ∈ " \t\n\x0b\x0c\r".toList) := by
  have hU : isUpper c = true ↔ c ∈ "ABCDEFGHIJKLMNOPQRSTUVWXYZ".toList := by
    constructor
    · intro h
      simp only [isUpper, Bool.and_eq_true, decide_eq_true_eq] at h
      obtain ⟨h1, h2⟩ := h
      generalize hn : c.toNat = n at h1 h2
      rw [char_eq c n hn]
      interval_cases n <;> decide
    · revert c; decide
  have hL : isLower c = true ↔ c ∈ "abcdefghijklmnopqrstuvwxyz".toList := by
    constructor
    · intro h
      simp only [isLower, Bool.and_eq_true, decide_eq_true_eq] at h
      obtain ⟨h1, h2⟩ := h
      generalize hn : c.toNat = n at h1 h2
      rw [char_eq c n hn]
      interval_cases n <;> decide
    · clear hU; revert c; decide
  refine ⟨hU, hL, ?_, ?_, ?_⟩
  · rw [← hU, ← hL, isAlpha, Bool.or_eq_true]
  · constructor
    · intro h
      simp only [isDigit, Bool.and_eq_true, decide_eq_true_eq] at h
      obtain ⟨h1, h2⟩ := h
      generalize hn : c.toNat = n at h1 h2
      rw [char_eq c n hn]
      interval_cases n <;> decide
    · clear hU hL; revert c; decide
  · rw [show " \t\n\x0b\x0c\r".toList = [' ', '\t', '\n', '\x0b', '\x0c', '\r'] by decide]
    simp [isSpace, or_assoc]

/-- C52: changing the case changes each letter for the same letter of the other case, and nothing
else. -/
theorem C52_case :
    "abcdefghijklmnopqrstuvwxyz".toList.map toUpper = "ABCDEFGHIJKLMNOPQRSTUVWXYZ".toList ∧
    "ABCDEFGHIJKLMNOPQRSTUVWXYZ".toList.map toLower = "abcdefghijklmnopqrstuvwxyz".toList ∧
    (∀ c, c ∉ "abcdefghijklmnopqrstuvwxyz".toList → toUpper c = c) ∧
    ∀ c, c ∉ "ABCDEFGHIJKLMNOPQRSTUVWXYZ".toList → toLower c = c := by
  refine ⟨by decide, by decide, fun c h => ?_, fun c h => ?_⟩
  · rw [← (C52_characters c).2.1] at h
    rw [toUpper, if_neg h]
  · rw [← (C52_characters c).1] at h
    rw [toLower, if_neg h]

example : upper "Line12Ten".toList = "LINE12TEN".toList ∧ lower "RK4".toList = "rk4".toList := by
  decide

/-! ## Splitting -/

/-- Specification: `ws` are the words of `s`: the separators and the words alternate, the
words are not empty and have no separator. -/
inductive Words (sep : Char → Prop) : Str → List Str → Prop
  | none (g : Str) (hg : ∀ c ∈ g, sep c) : Words sep g []
  | last (g w : Str) (hg : ∀ c ∈ g, sep c) (hw : w ≠ []) (hs : ∀ c ∈ w, ¬ sep c) :
      Words sep (g ++ w) [w]
  | more (g w : Str) (c : Char) (s : Str) (ws : List Str) (hg : ∀ c ∈ g, sep c) (hw : w ≠ [])
      (hs : ∀ c ∈ w, ¬ sep c) (hc : sep c) (h : Words sep s ws) :
      Words sep (g ++ w ++ c :: s) (w :: ws)

theorem Words.pre {sep : Char → Prop} {s : Str} {ws : List Str} (h : Words sep s ws) (c : Char)
    (hc : sep c) : Words sep (c :: s) ws := by
  have cons : ∀ g : Str, (∀ x ∈ g, sep x) → ∀ x ∈ c :: g, sep x := fun g hg x hx => by
    rcases List.mem_cons.1 hx with rfl | hx
    · exact hc
    · exact hg x hx
  cases h with
  | none _ hg => exact .none _ (cons _ hg)
  | last g w hg hw hs => exact .last (c :: g) w (cons _ hg) hw hs
  | more g w d s ws hg hw hs hd h => exact .more (c :: g) w d s ws (cons _ hg) hw hs hd h

theorem splitGo_words (sep : Char) (s cur : Str) (hcur : sep ∉ cur) :
    Words (· = sep) (cur ++ s) (splitGo sep cur s) := by
  induction s generalizing cur with
  | nil =>
    unfold splitGo
    split_ifs with h
    · subst h; exact .none _ (by simp)
    · have := Words.last (sep := (· = sep)) [] cur (by simp) h
        (fun c hc hce => hcur (hce ▸ hc))
      simpa using this
  | cons c cs ih =>
    unfold splitGo
    split_ifs with hc h
    · subst h
      simpa using Words.pre (ih [] (by simp)) c hc
    · have := Words.more (sep := (· = sep)) [] cur c cs _ (by simp) h
        (fun c hc hce => hcur (hce ▸ hc)) hc (ih [] (by simp))
      simpa using this
    · have := ih (cur ++ [c]) (by simp [hcur]; exact fun h => hc h.symm)
      simpa using this

/-- Splitting a string yields its words, in order. -/
theorem C52_split_words (sep : Char) (s : Str) : Words (· = sep) s (split sep s) := by
  have := splitGo_words sep s [] (by simp)
  exact this

theorem splitGo_sep (sep : Char) (g s : Str) (hg : ∀ c ∈ g, c = sep) :
    splitGo sep [] (g ++ s) = splitGo sep [] s := by
  induction g with
  | nil => rfl
  | cons c g ih =>
    rw [List.cons_append, splitGo, if_pos (hg c (by simp)), if_pos rfl]
    exact ih fun x hx => hg x (by simp [hx])

theorem splitGo_word (sep : Char) (w s cur : Str) (hw : ∀ c ∈ w, ¬ c = sep) :
    splitGo sep cur (w ++ s) = splitGo sep (cur ++ w) s := by
  induction w generalizing cur with
  | nil => simp
  | cons c w ih =>
    rw [List.cons_append, splitGo, if_neg (hw c (by simp)),
      ih (cur ++ [c]) fun x hx => hw x (by simp [hx])]
    simp

/-- And there is only one such list: any list of the words of a string is what splitting
yields. -/
theorem C52_split_unique (sep : Char) (s : Str) (ws : List Str) :
    Words (· = sep) s ws ↔ split sep s = ws := by
  constructor
  · intro h
    unfold split
    induction h with
    | none g hg =>
      have := splitGo_sep sep g [] hg
      simpa [splitGo] using this
    | last g w hg hw hs =>
      have h1 := splitGo_sep sep g w hg
      have h2 := splitGo_word sep w [] [] hs
      simp only [List.append_nil, List.nil_append] at h2
      rw [h1, h2, splitGo, if_neg hw]
    | more g w c s ws hg hw hs hc h ih =>
      rw [List.append_assoc, splitGo_sep sep g _ hg, splitGo_word sep w _ [] hs,
        List.nil_append, splitGo, if_pos hc, if_neg hw, ih]
  · rintro rfl
    exact C52_split_words sep s

/-- No token is empty or has a separator. -/
theorem C52_tokens (sep : Char) (s w : Str) (h : w ∈ split sep s) : w ≠ [] ∧ sep ∉ w := by
  have := C52_split_words sep s
  revert h
  generalize split sep s = ws at this
  intro h
  induction this with
  | none => simp at h
  | last g v hg hv hs =>
    simp only [List.mem_singleton] at h
    subst h
    exact ⟨hv, fun hm => hs _ hm rfl⟩
  | more g v c s ws hg hv hs hc hw ih =>
    rcases List.mem_cons.1 h with rfl | h
    · exact ⟨hv, fun hm => hs _ hm rfl⟩
    · exact ih h

/-- Nothing but the separators is lost. -/
theorem C52_nothing_lost (sep : Char) (s : Str) :
    (split sep s).flatten = s.filter (· ≠ sep) := by
  have := C52_split_words sep s
  have hf : ∀ g : Str, (∀ c ∈ g, c = sep) → g.filter (· ≠ sep) = [] := fun g hg => by
    simpa [List.filter_eq_nil_iff] using hg
  have hk : ∀ w : Str, (∀ c ∈ w, ¬ c = sep) → w.filter (· ≠ sep) = w := fun w hw => by
    simpa [List.filter_eq_self] using hw
  generalize split sep s = ws at this
  induction this with
  | none g hg => rw [hf g hg]; rfl
  | last g w hg hw hs => rw [List.filter_append, hf g hg, hk w hs]; simp
  | more g w c s ws hg hw hs hc h ih =>
    rw [List.filter_append, List.filter_append, hf g hg, hk w hs, List.flatten_cons, ih,
      List.filter_cons_of_neg (by simp [hc])]
    simp

/-- Joining words with separators and splitting again is the identity. -/
theorem C52_split_join (sep : Char) (ws : List Str) (h : ∀ w ∈ ws, w ≠ [] ∧ sep ∉ w) :
    split sep ([sep].intercalate ws) = ws := by
  rw [← C52_split_unique]
  induction ws with
  | nil => exact .none _ (by simp [List.intercalate])
  | cons w ws ih =>
    obtain ⟨hw, hs⟩ := h w (by simp)
    have hs' : ∀ c ∈ w, ¬ c = sep := fun c hc e => hs (e ▸ hc)
    cases ws with
    | nil =>
      have := Words.last (sep := (· = sep)) [] w (by simp) hw hs'
      simpa [List.intercalate, List.intersperse] using this
    | cons v vs =>
      have ih := ih fun w hw => h w (by simp [hw])
      have := Words.more (sep := (· = sep)) [] w sep _ _ (by simp) hw hs' rfl ih
      simpa [List.intercalate, List.intersperse] using this

/-- Joining the tokens of a string and splitting again yields the tokens. -/
theorem C52_join_split (sep : Char) (s : Str) :
    split sep ([sep].intercalate (split sep s)) = split sep s :=
  C52_split_join sep _ fun w hw => C52_tokens sep s w hw

example : split ' ' "  12  free   0.5 ".toList = ["12".toList, "free".toList, "0.5".toList] := by
  decide +kernel

/-- The tokeniser of the sections of the input file (separator: the space) does not split
at tabs, so that its tokens are not the words between blanks. -/
theorem C52_tabs_false :
    ¬ ∀ s : Str, Words (fun c => c = ' ' ∨ c = '\t') s (split ' ' s) := by
  intro h
  have := h "1\t2".toList
  rw [show split ' ' "1\t2".toList = ["1\t2".toList] by decide +kernel] at this
  have key : ∀ s ws, Words (fun c => c = ' ' ∨ c = '\t') s ws → ∀ w ∈ ws, '\t' ∉ w := by
    intro s ws h
    induction h with
    | none => simp
    | last g w hg hw hs =>
      intro v hv; simp only [List.mem_singleton] at hv; subst hv
      exact fun hm => hs _ hm (Or.inr rfl)
    | more g w c s ws hg hw hs hc h ih =>
      intro v hv
      rcases List.mem_cons.1 hv with rfl | hv
      · exact fun hm => hs _ hm (Or.inr rfl)
      · exact ih v hv
  exact key _ _ this "1\t2".toList (List.mem_singleton.2 rfl) (by decide)

/-- The tokeniser of the bathymetry files splits at tabs too, but only if there is a
single word between spaces: a line mixing both keeps tabs in its tokens. -/
theorem C52_mixed_false :
    ¬ ∀ s : Str, ∀ w ∈ splitBlank s, '\t' ∉ w := by
  intro h
  exact h "1\t2 3".toList "1\t2".toList (by decide +kernel) (by decide)

theorem words_or_of_not_mem {a b : Char} {s : Str} (hb : b ∉ s) {ws : List Str}
    (h : Words (· = a) s ws) : Words (fun c => c = a ∨ c = b) s ws := by
  induction h with
  | none g hg => exact .none g fun c hc => Or.inl (hg c hc)
  | last g w hg hw hs =>
    refine .last g w (fun c hc => Or.inl (hg c hc)) hw fun c hc => ?_
    rintro (h | h)
    · exact hs c hc h
    · exact hb (by subst h; simp [hc])
  | more g w c s ws hg hw hs hc h ih =>
    refine .more g w c s ws (fun c hc => Or.inl (hg c hc)) hw (fun c hc => ?_) (Or.inl hc)
      (ih fun h => hb (by simp [h]))
    rintro (h | h)
    · exact hs c hc h
    · exact hb (by subst h; simp [hc])

theorem words_or_comm {a b : Char} {s : Str} {ws : List Str}
    (h : Words (fun c => c = a ∨ c = b) s ws) : Words (fun c => c = b ∨ c = a) s ws := by
  have e : (fun c => c = a ∨ c = b) = (fun c => c = b ∨ c = a) := by
    funext c; exact propext or_comm
  rwa [e] at h

/-- Lines with spaces only, or tabs only, are split into the words between blanks. -/
theorem C52_blank_partial (s : Str) (h : '\t' ∉ s ∨ ' ' ∉ s) :
    Words (fun c => c = ' ' ∨ c = '\t') s (splitBlank s) := by
  rcases h with h | h
  · have h1 := words_or_of_not_mem h (C52_split_words ' ' s)
    unfold splitBlank
    split
    · next w hw =>
      rw [hw] at h1
      have hwt : '\t' ∉ w := by
        intro hm
        have := C52_nothing_lost ' ' s
        rw [hw] at this
        simp only [List.flatten_cons, List.flatten_nil, List.append_nil] at this
        rw [this] at hm
        exact h (List.mem_filter.1 hm).1
      have hne := (C52_tokens ' ' s w (by rw [hw]; simp)).1
      have : split '\t' w = [w] := by
        rw [← C52_split_unique]
        have := Words.last (sep := (· = '\t')) [] w (by simp) hne
          (fun c hc e => hwt (e ▸ hc))
        simpa using this
      rw [this]
      exact h1
    · exact h1
  · have hs : s = [] ∨ split ' ' s = [s] := by
      by_cases he : s = []
      · exact Or.inl he
      · right
        rw [← C52_split_unique]
        have := Words.last (sep := (· = ' ')) [] s (by simp) he (fun c hc e => h (e ▸ hc))
        simpa using this
    rcases hs with rfl | hs
    · exact .none _ (by simp)
    · have : splitBlank s = split '\t' s := by unfold splitBlank; rw [hs]
      rw [this]
      exact words_or_comm (words_or_of_not_mem h (C52_split_words '\t' s))

/-! ## Trimming -/

/-- Trimming removes the blanks at the end, all of them, and nothing else. -/
theorem C52_rtrim (s : Str) :
    (∃ t : Str, s = rtrim s ++ t ∧ ∀ c ∈ t, isSpace c = true) ∧
    ∀ c, (rtrim s).getLast? = some c → isSpace c = false := by
  constructor
  · refine ⟨(s.reverse.takeWhile isSpace).reverse, ?_, ?_⟩
    · unfold rtrim
      rw [← List.reverse_append, List.takeWhile_append_dropWhile, List.reverse_reverse]
    · intro c hc
      exact List.mem_takeWhile_imp (List.mem_reverse.1 hc)
  · intro c hc
    unfold rtrim at hc
    rw [List.getLast?_reverse] at hc
    cases hd : s.reverse.dropWhile isSpace with
    | nil => rw [hd] at hc; simp at hc
    | cons d ds =>
      rw [hd] at hc
      simp only [List.head?_cons, Option.some.injEq] at hc
      subst hc
      have := List.head?_dropWhile_not isSpace s.reverse
      rw [hd] at this
      simpa using this

example : rtrim "ab c \t\r".toList = "ab c".toList := by decide +kernel

/-! ## Letters and numbers of a word -/

theorem marks_bounds (b : Bool) (room pos : ℕ) (s : Str) :
    (marks b room pos s).Pairwise (· < ·) ∧
    ∀ m ∈ marks b room pos s, pos ≤ m ∧ m < pos + s.length := by
  induction s generalizing b room pos with
  | nil => cases room <;> simp [marks]
  | cons c cs ih =>
    cases room with
    | zero => simp [marks]
    | succ room =>
      unfold marks
      split_ifs with h
      · obtain ⟨h1, h2⟩ := ih (!b) room (pos + 1)
        refine ⟨List.pairwise_cons.2 ⟨fun m hm => by have := h2 m hm; omega, h1⟩, ?_⟩
        intro m hm
        rw [List.length_cons]
        rcases List.mem_cons.1 hm with rfl | hm
        · omega
        · have := h2 m hm; omega
      · obtain ⟨h1, h2⟩ := ih b (room + 1) (pos + 1)
        refine ⟨h1, fun m hm => ?_⟩
        have := h2 m hm
        rw [List.length_cons]
        omega

theorem slice_append (s : Str) (a b c : ℕ) (hab : a ≤ b) (hbc : b ≤ c) :
    slice s a b ++ slice s b c = slice s a c := by
  unfold slice
  have : s.drop b = (s.drop a).drop (b - a) := by rw [List.drop_drop]; congr 1; omega
  rw [this, ← List.take_add]
  congr 1
  omega

theorem getD_mono (m : List ℕ) (e : ℕ) (h : m.Pairwise (· < ·)) (he : ∀ x ∈ m, x < e) (i j : ℕ)
    (hij : i ≤ j) : m.getD i e ≤ m.getD j e := by
  rw [List.getD_eq_getElem?_getD, List.getD_eq_getElem?_getD]
  by_cases hj : j < m.length
  · have hi : i < m.length := by omega
    rw [List.getElem?_eq_getElem hi, List.getElem?_eq_getElem hj]
    simp only [Option.getD_some]
    rcases Nat.lt_or_ge i j with hlt | hge
    · exact ((List.pairwise_iff_getElem.1 h) i j hi hj hlt).le
    · have : i = j := by omega
      subst this; exact le_rfl
  · rw [List.getElem?_eq_none (by omega : m.length ≤ j)]
    by_cases hi : i < m.length
    · rw [List.getElem?_eq_getElem hi]
      simp only [Option.getD_some, Option.getD_none]
      exact (he _ (List.getElem_mem hi)).le
    · rw [List.getElem?_eq_none (by omega)]

/-- The pieces of a word, put together again, are the word in upper case. -/
theorem C52_decompose_concat (w : Str) :
    (decompose w).let1 ++ (decompose w).num1 ++ (decompose w).let2 ++ (decompose w).num2 ++
      (decompose w).let3 = upper w := by
  obtain ⟨h1, h2⟩ := marks_bounds true 5 0 (upper w)
  have he : ∀ x ∈ marks true 5 0 (upper w), x < (upper w).length := fun x hx => by
    have := (h2 x hx).2; omega
  have hm := getD_mono _ (upper w).length h1 he
  have hle : ∀ k, (marks true 5 0 (upper w)).getD k (upper w).length ≤ (upper w).length := by
    intro k
    rw [List.getD_eq_getElem?_getD]
    by_cases hk : k < (marks true 5 0 (upper w)).length
    · rw [List.getElem?_eq_getElem hk]; exact (he _ (List.getElem_mem hk)).le
    · rw [List.getElem?_eq_none (by omega)]; simp
  simp only [decompose]
  rw [slice_append _ _ _ _ (Nat.zero_le _) (hm 0 1 (by omega)),
    slice_append _ _ _ _ (Nat.zero_le _) (hm 1 2 (by omega)),
    slice_append _ _ _ _ (Nat.zero_le _) (hm 2 3 (by omega)),
    slice_append _ _ _ _ (Nat.zero_le _) (hle 3)]
  simp [slice]

theorem marks_skip (b : Bool) (room pos : ℕ) (w s : Str)
    (h : ∀ c ∈ w, ((isAlpha c || isDigit c) && (isAlpha c != b)) = false) :
    marks b (room + 1) pos (w ++ s) = marks b (room + 1) (pos + w.length) s := by
  induction w generalizing pos with
  | nil => simp
  | cons c w ih =>
    rw [List.cons_append, marks, if_neg (by rw [h c (by simp)]; simp),
      ih (pos + 1) fun x hx => h x (by simp [hx])]
    congr 1
    rw [List.length_cons]; omega

theorem marks_hit (b : Bool) (room pos : ℕ) (c : Char) (s : Str)
    (h : ((isAlpha c || isDigit c) && (isAlpha c != b)) = true) :
    marks b (room + 1) pos (c :: s) = pos :: marks (!b) room (pos + 1) s := by
  rw [marks, if_pos h]

/-- Characters of a word: letters, or digits. -/
theorem isDigit_not_alpha (c : Char) (h : isDigit c = true) : isAlpha c = false := by
  simp only [isDigit, isAlpha, isUpper, isLower, Bool.and_eq_true, decide_eq_true_eq,
    Bool.or_eq_false_iff, Bool.and_eq_false_iff, decide_eq_false_iff_not] at *
  omega

theorem toUpper_isAlpha (c : Char) (h : isAlpha c = true) : isAlpha (toUpper c) = true := by
  unfold toUpper
  split_ifs with hl
  · have hn : (Char.ofNat (c.toNat - 32)).toNat = c.toNat - 32 := by
      have : (c.toNat - 32).isValidChar := by
        simp only [isLower, Bool.and_eq_true, decide_eq_true_eq] at hl
        left; omega
      rw [Char.toNat, Char.ofNat, dif_pos this]
      simp [Char.ofNatAux]
    simp only [isAlpha, isUpper, isLower, Bool.or_eq_true, Bool.and_eq_true,
      decide_eq_true_eq, hn] at *
    omega
  · exact h

theorem toUpper_isDigit (c : Char) (h : isDigit c = true) : toUpper c = c := by
  unfold toUpper
  rw [if_neg]
  simp only [isDigit, isLower, Bool.and_eq_true, decide_eq_true_eq] at *
  omega

theorem slice_mid (s x y z : Str) (a b : ℕ) (h : s = x ++ (y ++ z)) (ha : a = x.length)
    (hb : b = x.length + y.length) : slice s a b = y := by
  subst h ha hb
  simp [slice]

/-- Words of letters, digits, letters, digits, letters come apart into these. -/
theorem pieces_upper (A D B E C : Str) (hA : ∀ c ∈ A, isAlpha c = true)
    (hD : ∀ c ∈ D, isDigit c = true) (hB : ∀ c ∈ B, isAlpha c = true)
    (hE : ∀ c ∈ E, isDigit c = true) (hC : ∀ c ∈ C, isAlpha c = true)
    (h1 : D ≠ []) (h2 : E ≠ [] → B ≠ []) (h3 : C ≠ [] → E ≠ []) :
    let s := A ++ (D ++ (B ++ (E ++ C)))
    let m := fun k => (marks true 5 0 s).getD k s.length
    m 0 = A.length ∧ m 1 = A.length + D.length ∧ m 2 = A.length + D.length + B.length ∧
    m 3 = A.length + D.length + B.length + E.length := by
  have al : ∀ (X : Str), (∀ c ∈ X, isAlpha c = true) →
      ∀ c ∈ X, ((isAlpha c || isDigit c) && (isAlpha c != true)) = false := fun X hX c hc => by
    rw [hX c hc]; rfl
  have dg : ∀ (X : Str), (∀ c ∈ X, isDigit c = true) →
      ∀ c ∈ X, ((isAlpha c || isDigit c) && (isAlpha c != false)) = false := fun X hX c hc => by
    rw [isDigit_not_alpha c (hX c hc)]; simp
  have ah : ∀ c, isAlpha c = true → ((isAlpha c || isDigit c) && (isAlpha c != false)) = true :=
    fun c hc => by rw [hc]; rfl
  have dh : ∀ c, isDigit c = true → ((isAlpha c || isDigit c) && (isAlpha c != true)) = true :=
    fun c hc => by rw [isDigit_not_alpha c hc, hc]; rfl
  have tl : ∀ (p : Char → Bool) (c : Char) (X : Str), (∀ x ∈ c :: X, p x = true) →
      p c = true ∧ ∀ x ∈ X, p x = true := fun p c X h =>
    ⟨h c (by simp), fun x hx => h x (by simp [hx])⟩
  have mn : ∀ b r p, marks b r p [] = [] := by intro b r p; cases r <;> rfl
  intro s m
  have key : marks true 5 0 s = [A.length] ++ (if B = [] then [] else [A.length + D.length]) ++
      (if E = [] then [] else [A.length + D.length + B.length]) ++
      (if C = [] then [] else [A.length + D.length + B.length + E.length]) := by
    obtain ⟨d, D, rfl⟩ := List.exists_cons_of_ne_nil h1
    obtain ⟨hd, hD⟩ := tl isDigit d D hD
    simp only [s]
    rw [marks_skip true 4 0 A _ (al A hA), List.cons_append, marks_hit _ _ _ _ _ (dh d hd)]
    rw [show (!true) = false from rfl, marks_skip false 3 _ D _ (dg D hD)]
    cases B with
    | nil =>
      have hE0 : E = [] := by by_contra h; exact h2 h rfl
      subst hE0
      have hC0 : C = [] := by by_contra h; exact h3 h rfl
      subst hC0
      simp [mn]
    | cons b B =>
      obtain ⟨hb, hB⟩ := tl isAlpha b B hB
      rw [List.cons_append, marks_hit _ _ _ _ _ (ah b hb), show (!false) = true from rfl,
        marks_skip true 2 _ B _ (al B hB)]
      cases E with
      | nil =>
        have hC0 : C = [] := by by_contra h; exact h3 h rfl
        subst hC0
        simp [mn]; omega
      | cons e E =>
        obtain ⟨he, hE⟩ := tl isDigit e E hE
        rw [List.cons_append, marks_hit _ _ _ _ _ (dh e he), show (!true) = false from rfl,
          marks_skip false 1 _ E _ (dg E hE)]
        cases C with
        | nil => simp [mn]; omega
        | cons c C =>
          obtain ⟨hc, hC⟩ := tl isAlpha c C hC
          have h0 : ∀ p, marks true 1 p C = [] := by
            intro p
            have := marks_skip true 0 p C [] (al C hC)
            simpa [mn] using this
          rw [marks_hit _ _ _ _ _ (ah c hc), show (!false) = true from rfl, h0]
          simp; omega
  have hl : s.length = A.length + D.length + B.length + E.length + C.length := by
    simp only [s, List.length_append]; omega
  simp only [m]
  rw [key, hl]
  by_cases hB0 : B = []
  · have hE0 : E = [] := by by_contra h; exact h2 h hB0
    have hC0 : C = [] := by by_contra h; exact h3 h hE0
    subst hB0 hE0 hC0
    simp
  · by_cases hE0 : E = []
    · have hC0 : C = [] := by by_contra h; exact h3 h hE0
      subst hE0 hC0
      simp [hB0]
    · by_cases hC0 : C = []
      · subst hC0; simp [hB0, hE0]
      · simp [hB0, hE0, hC0]

/-- A word made of letters, a number, and optionally letters, a number and letters again
(such as `Body1Pinned`, `R2A`, `12` or `L3N5px`) comes apart into these, with the letters
in upper case. -/
theorem C52_decompose_word (A D B E C : Str) (hA : ∀ c ∈ A, isAlpha c = true)
    (hD : ∀ c ∈ D, isDigit c = true) (hB : ∀ c ∈ B, isAlpha c = true)
    (hE : ∀ c ∈ E, isDigit c = true) (hC : ∀ c ∈ C, isAlpha c = true)
    (h1 : D ≠ []) (h2 : E ≠ [] → B ≠ []) (h3 : C ≠ [] → E ≠ []) :
    decompose (A ++ D ++ B ++ E ++ C) = ⟨upper A, D, upper B, E, upper C⟩ := by
  have ua : ∀ X : Str, (∀ c ∈ X, isAlpha c = true) → ∀ c ∈ upper X, isAlpha c = true :=
    fun X hX c hc => by
      obtain ⟨x, hx, rfl⟩ := List.mem_map.1 hc
      exact toUpper_isAlpha x (hX x hx)
  have ud : ∀ X : Str, (∀ c ∈ X, isDigit c = true) → upper X = X := fun X hX => by
    unfold upper
    conv_rhs => rw [← List.map_id X]
    exact List.map_congr_left fun c hc => toUpper_isDigit c (hX c hc)
  have un : ∀ X : Str, upper X ≠ [] ↔ X ≠ [] := fun X => by simp [upper]
  have hu : upper (A ++ D ++ B ++ E ++ C) = upper A ++ (D ++ (upper B ++ (E ++ upper C))) := by
    simp only [upper, List.map_append, List.append_assoc]
    rw [show D.map toUpper = D from ud D hD, show E.map toUpper = E from ud E hE]
  obtain ⟨m0, m1, m2, m3⟩ := pieces_upper (upper A) D (upper B) E (upper C) (ua A hA) hD (ua B hB)
    hE (ua C hC) h1 (fun h => (un B).2 (h2 h)) (fun h => h3 ((un C).1 h))
  simp only [decompose, hu]
  beta_reduce at m0 m1 m2 m3
  rw [m0, m1, m2, m3]
  simp only [Pieces.mk.injEq]
  exact ⟨slice_mid _ [] _ _ _ _ rfl rfl (by simp), slice_mid _ _ _ _ _ _ rfl rfl rfl,
    slice_mid _ (upper A ++ D) _ (E ++ upper C) _ _ (by simp) (by simp) (by simp),
    slice_mid _ (upper A ++ D ++ upper B) _ (upper C) _ _ (by simp) (by simp; omega)
      (by simp; omega),
    slice_mid _ (upper A ++ D ++ upper B ++ E) _ [] _ _ (by simp) (by simp; omega)
      (by simp; omega)⟩

example : decompose "Body1Pinned".toList =
    ⟨"BODY".toList, "1".toList, "PINNED".toList, [], []⟩ := by decide +kernel

end MD.Text
