import Verif.Model.Strings
import Verif.Spec.Strings
import Verif.Lemmas.Base
/-! # Tokenizer, paths, patterns, file classes, flags (C30, C31, C36, C53, C56, C58, C63, C64) -/
set_option linter.unusedSimpArgs false

namespace CM

/-! ## C31: tokenizer -/

theorem tokLoop_stop (q : Bool) (m d : Nat) (c : UInt8) (r : Str) (h : tokStop q c = true) :
    tokLoop q m d (c :: r) = ([], c :: r) := by
  unfold tokLoop; rw [if_pos h]

theorem tokLoop_bounds (q : Bool) (maxlen : Nat) (d : Nat) (s : Str) (hd : d ≤ maxlen - 1) :
    (tokLoop q maxlen d s).1.length + d ≤ maxlen - 1 ∧
    ∃ pre, s = pre ++ (tokLoop q maxlen d s).2 ∧ 10 ∉ pre ∧ (tokLoop q maxlen d s).1.length ≤ pre.length := by
  fun_induction tokLoop q maxlen d s with
  | case1 d => exact ⟨by simpa using hd, [], by simp⟩
  | case2 d c r h => exact ⟨by simpa using hd, [], by simp⟩
  | case3 d h => refine ⟨by split <;> simp <;> omega, [92], by simp; split <;> simp⟩
  | case4 d r' h => refine ⟨by split <;> simp <;> omega, [92], by simp; split <;> simp⟩
  | case5 d x r' h1 h2 h3 ih =>
    obtain ⟨a, pre, b, c, e⟩ := ih (by omega)
    refine ⟨by simp; omega, 92 :: x :: pre, by simpa using b, ?_, by simp; omega⟩
    simp [c, Ne.symm h1]
  | case6 d x r' h1 h2 h3 ih =>
    obtain ⟨a, pre, b, c, e⟩ := ih (by omega)
    refine ⟨a, 92 :: x :: pre, by simpa using b, ?_, by simp; omega⟩
    simp [c, Ne.symm h1]
  | case7 d x r h1 h2 h3 ih =>
    obtain ⟨a, pre, b, c, e⟩ := ih (by omega)
    refine ⟨by simp; omega, x :: pre, by simpa using b, ?_, by simp; omega⟩
    simp [c]; rintro rfl; exact h1 rfl
  | case8 d x r h1 h2 h3 ih =>
    obtain ⟨a, pre, b, c, e⟩ := ih (by omega)
    refine ⟨a, x :: pre, by simpa using b, ?_, by simp; omega⟩
    simp [c]; rintro rfl; exact h1 rfl

theorem dropWhile_decomp (p : UInt8 → Bool) (s : Str) :
    s = s.takeWhile p ++ s.dropWhile p := (List.takeWhile_append_dropWhile).symm

/-- C31. The tokenizer never stores more than `maxlen` bytes (with the terminator), never reads past
the end of the string, never leaves the current line, and always advances when it returns a token. -/
theorem jbstrcpy_bounds (maxlen : Nat) (src : Str) (hm : 0 < maxlen) :
    (jbstrcpy maxlen src).1.length < maxlen ∧
    ∃ used, src = used ++ (jbstrcpy maxlen src).2.1 ∧ 10 ∉ used ∧
      ((jbstrcpy maxlen src).2.2 = true → used ≠ []) := by
  have hb : 10 ∉ src.takeWhile isBlank := by
    intro h
    have := mem_takeWhile h
    simp [isBlank] at this
  simp only [jbstrcpy]
  generalize hq : (((src.dropWhile isBlank).head? == some 34) : Bool) = q
  generalize hs : (if q = true then (src.dropWhile isBlank).tail else src.dropWhile isBlank) = s
  obtain ⟨h1, pre, h2, h3, h4⟩ := tokLoop_bounds q maxlen 0 s (by omega)
  refine ⟨by omega, ?_⟩
  have hqs : ∃ u, src.dropWhile isBlank = u ++ s ∧ 10 ∉ u ∧ (q = true → u ≠ []) := by
    cases q with
    | false => exact ⟨[], by simpa using hs, by simp, by simp⟩
    | true =>
      cases hh : src.dropWhile isBlank with
      | nil => simp [hh] at hq
      | cons a t =>
        simp [hh] at hq hs
        exact ⟨[34], by simp [hq, hs], by simp, by simp⟩
  obtain ⟨u, hu1, hu2, hu3⟩ := hqs
  have e : src = src.takeWhile isBlank ++ (u ++ (pre ++ (tokLoop q maxlen 0 s).2)) := by
    rw [← h2, ← hu1]; exact dropWhile_decomp _ _
  generalize htt : tokLoop q maxlen 0 s = tt at *
  obtain ⟨tok, rest⟩ := tt
  have key : ∃ v, rest = v ++ skipSep rest ∧ 10 ∉ v := by
    clear htt h1 h2 h4 e
    cases rest with
    | nil => exact ⟨[], by simp [skipSep]⟩
    | cons c r =>
      simp only [skipSep]
      split
      · rename_i h
        refine ⟨[c], by simp, ?_⟩
        rcases h with rfl | rfl | rfl <;> simp
      · exact ⟨[], by simp⟩
  obtain ⟨v, hv1, hv2⟩ := key
  refine ⟨src.takeWhile isBlank ++ (u ++ (pre ++ v)), ?_, ?_, ?_⟩
  · simp only [List.append_assoc]
    simp only at hv1 e
    rw [← hv1]; exact e
  · simp [hb, hu2, h3, hv2]
  · intro h
    simp only [Bool.or_eq_true] at h
    simp only [ne_eq, List.append_eq_nil_iff]
    rintro ⟨_, hu, hp, _⟩
    rcases h with h | h
    · simp at h
      rw [hp] at h4; simp at h4; exact h h4
    · exact hu3 h hu

/-- C31. The same for the rest-of-line reader; it takes the line from the first nonblank on. -/
theorem jbstrcpyrest_spec (maxlen : Nat) (blanks line rest : Str) (hb : ∀ c ∈ blanks, c = 32 ∨ c = 9)
    (hl : ∀ c ∈ line, c ≠ 10) (h0 : ∀ c, line.head? = some c → c ≠ 32 ∧ c ≠ 9)
    (hr : rest = [] ∨ rest.head? = some 10) (hm : line.length < maxlen) :
    jbstrcpyrest maxlen (blanks ++ line ++ rest) = (line, rest, decide (line ≠ [])) := by
  have hrb : (line ++ rest).dropWhile isBlank = line ++ rest := by
    cases line with
    | nil =>
      rcases hr with rfl | hr
      · rfl
      · cases rest with
        | nil => rfl
        | cons a t => simp at hr; subst hr; simp [isBlank]
    | cons a t =>
      have := h0 a rfl
      simp [isBlank, this]
  have e1 : (blanks ++ line ++ rest).dropWhile isBlank = line ++ rest := by
    rw [List.append_assoc, dropWhile_append_of_all _ _ _ (by intro c hc; rcases hb c hc with rfl | rfl <;> decide), hrb]
  have e2 : (line ++ rest).takeWhile (· != 10) = line := by
    rw [takeWhile_append_of_all _ _ _ (by intro c hc; simpa using hl c hc)]
    rcases hr with rfl | hr
    · simp
    · cases rest with
      | nil => simp
      | cons a t => simp at hr; subst hr; simp
  have e3 : (line ++ rest).dropWhile (· != 10) = rest := by
    rw [dropWhile_append_of_all _ _ _ (by intro c hc; simpa using hl c hc)]
    rcases hr with rfl | hr
    · simp
    · cases rest with
      | nil => simp
      | cons a t => simp at hr; subst hr; simp
  simp only [jbstrcpyrest, e1, e2, e3, List.take_of_length_le (show line.length ≤ maxlen - 1 by omega)]

/-! ## C30: writing a string and reading it back -/

theorem escape_eq (s : Str) : escape s = s.flatMap (fun c => if c = 34 ∨ c = 92 then [92, c] else [c]) := by
  induction s with
  | nil => rfl
  | cons c s ih => simp only [escape, ih, List.flatMap_cons]; split <;> simp

theorem writeSafely_eq (s : Str) (h : (escape s).length < 300) : writeSafely s = .ok (Quoted s) := by
  simp only [writeSafely, h, if_true, Quoted, ← escape_eq]

theorem tokLoop_escape (maxlen : Nat) (s r : Str) (hs : 10 ∉ s) : ∀ d,
    tokLoop true maxlen d (escape s ++ 34 :: r) = (s.take (maxlen - 1 - d), 34 :: r) := by
  induction s with
  | nil => intro d; simp [escape, tokLoop_stop, tokStop]
  | cons c s ih =>
    intro d
    simp only [List.mem_cons, not_or] at hs
    have hc : c ≠ 10 := fun h => hs.1 h.symm
    simp only [escape]
    by_cases h : c = 34 ∨ c = 92
    · simp only [h, if_true, List.cons_append]
      unfold tokLoop
      simp only [tokStop, hc, if_false]
      simp only [ih hs.2]
      by_cases hd : d < maxlen - 1
      · obtain ⟨k, hk⟩ : ∃ k, maxlen - 1 - d = k + 1 := ⟨maxlen - 1 - d - 1, by omega⟩
        have : maxlen - 1 - (d + 1) = k := by omega
        simp [hd, hk, this]
      · have : maxlen - 1 - d = 0 := by omega
        simp [hd, this]
    · simp only [h, if_false, List.cons_append]
      simp only [not_or] at h
      unfold tokLoop
      simp only [ih hs.2]
      have hst : tokStop true c = false := by simp [tokStop, hc, h]
      simp only [hst, h, if_false]
      by_cases hd : d < maxlen - 1
      · obtain ⟨k, hk⟩ : ∃ k, maxlen - 1 - d = k + 1 := ⟨maxlen - 1 - d - 1, by omega⟩
        have : maxlen - 1 - (d + 1) = k := by omega
        simp [hd, hk, this]
      · have : maxlen - 1 - d = 0 := by omega
        simp [hd, this]

/-- C30. Whatever string is written to the configuration (it has no line feed), reading the line
gives back exactly that string (cut to the reader's buffer) and leaves the reader just after it. -/
theorem jbstrcpy_quoted (maxlen : Nat) (s rest blanks : Str) (hs : 10 ∉ s)
    (hb : ∀ c ∈ blanks, c = 32 ∨ c = 9) :
    jbstrcpy maxlen (blanks ++ Quoted s ++ rest) = (s.take (maxlen - 1), rest, true) := by
  have e : (blanks ++ Quoted s ++ rest).dropWhile isBlank = 34 :: (escape s ++ 34 :: rest) := by
    rw [List.append_assoc, dropWhile_append_of_all _ _ _ (by intro c hc; rcases hb c hc with rfl | rfl <;> decide)]
    simp [Quoted, isBlank, escape_eq]
  simp only [jbstrcpy, e]
  simp [tokLoop_escape maxlen s rest hs 0, skipSep]

/-- C30. Exact round trip. -/
theorem jbstrcpy_writeSafely (maxlen : Nat) (s rest out : Str) (hs : 10 ∉ s) (hl : s.length < maxlen)
    (h : writeSafely s = .ok out) :
    jbstrcpy maxlen (out ++ rest) = (s, rest, true) := by
  have ho : out = Quoted s := by
    by_cases hlen : (escape s).length < 300
    · rw [writeSafely_eq s hlen] at h; simpa using h.symm
    · simp [writeSafely, hlen] at h
  subst ho
  have := jbstrcpy_quoted maxlen s rest [] hs (by simp)
  rw [List.take_of_length_le (by omega)] at this
  simpa using this

theorem escape_length (s : Str) : (escape s).length = s.length + s.countP (fun c => c == 34 || c == 92) := by
  induction s with
  | nil => rfl
  | cons c s ih => simp only [escape, List.countP_cons]; split <;> simp [ih, *] <;> omega

/-- C30 (violated). A string of 150 quotation marks, which fits the 200-byte buffer of the
configuration reader, overflows the writer's 300-byte buffer. -/
theorem writeSafely_overflow (n : Nat) (h : 150 ≤ n) :
    writeSafely (List.replicate n 34) = .error .oobWrite := by
  have : (escape (List.replicate n 34)).length = 2 * n := by
    rw [escape_length]; simp [List.countP_replicate]; omega
  simp only [writeSafely, this]
  rw [if_neg (by omega)]

/-- C30. Strings of less than 150 bytes never overflow it. -/
theorem writeSafely_ok_partial (s : Str) (h : s.length < 150) : ∃ out, writeSafely s = .ok out := by
  refine ⟨_, writeSafely_eq s ?_⟩
  rw [escape_length]
  have : s.countP (fun c => c == 34 || c == 92) ≤ s.length := List.countP_le_length
  omega

/-- A line of quoted words separated by blanks. -/
def quotedLine : List Str → Str
  | [] => []
  | w :: ws => 32 :: (Quoted w ++ quotedLine ws)

/-- Reading up to `n` tokens from a line. -/
def readTokens (maxlen : Nat) : Nat → Str → List Str
  | 0, _ => []
  | n + 1, s =>
    if (jbstrcpy maxlen s).2.2 then (jbstrcpy maxlen s).1 :: readTokens maxlen n (jbstrcpy maxlen s).2.1 else []

/-- C30. A whole line of written strings is read back word by word, and nothing more is read. -/
theorem readTokens_quotedLine (maxlen : Nat) (ws : List Str)
    (h : ∀ w ∈ ws, 10 ∉ w ∧ w.length < maxlen) (n : Nat) (hn : ws.length ≤ n) (tail : Str)
    (ht : tail = [] ∨ tail.head? = some 10) :
    readTokens maxlen n (quotedLine ws ++ tail) = ws := by
  induction ws generalizing n with
  | nil =>
    have e : jbstrcpy maxlen tail = ([], tail, false) := by
      rcases ht with rfl | ht
      · simp [jbstrcpy, tokLoop, skipSep]
      · cases tail with
        | nil => simp [jbstrcpy, tokLoop, skipSep]
        | cons a t => simp at ht; subst ht; simp [jbstrcpy, tokLoop_stop, isBlank, tokStop, skipSep]
    cases n <;> simp [readTokens, quotedLine, e]
  | cons w ws ih =>
    obtain ⟨n, rfl⟩ : ∃ k, n = k + 1 := ⟨n - 1, by simp at hn; omega⟩
    have hw := h w (by simp)
    have := jbstrcpy_quoted maxlen w (quotedLine ws ++ tail) [32] hw.1 (by simp)
    rw [List.take_of_length_le (by omega)] at this
    simp only [quotedLine, List.cons_append, List.append_assoc] at this ⊢
    simp only [List.nil_append] at this
    simp only [readTokens, this, if_true]
    rw [ih (fun w hw => h w (by simp [hw])) n (by simp at hn; omega)]

example : jbstrcpy 200 b!"  \"a \\\"b\\\" c\" NEXT" = (b!"a \"b\" c", b!" NEXT", true) := by decide
example : jbstrcpy 5 b!"abcdefgh x" = (b!"abcd", b!"x", true) := by decide
example : 10 ∉ b!"C:\\path \"x\"" ∧ (b!"C:\\path \"x\"").length < 200 := by decide

/-! ## C53, C63: paths -/

theorem getFilePartLoop_spec (s ret : Str) :
    getFilePartLoop ret s = if 47 ∈ s then getFilePartLoop [] s else ret := by
  induction s generalizing ret with
  | nil => rfl
  | cons c s ih =>
    by_cases hc : c = 47
    · subst hc; simp [getFilePartLoop]
    · have : ¬ (47 : UInt8) = c := fun h => hc h.symm
      simp only [getFilePartLoop, hc, if_false, List.mem_cons, this, false_or]
      rw [ih ret]

/-- C53/C63. The file part of a name: the part after the last `/`. -/
theorem getFilePart_iff (s f : Str) :
    getFilePart s = f ↔ 47 ∉ f ∧ (s = f ∨ ∃ dir, s = dir ++ [47] ++ f) := by
  have a : ∀ s : Str, 47 ∉ s → getFilePart s = s := by
    intro s hs; unfold getFilePart; rw [getFilePartLoop_spec]; simp [hs]
  have nil : ∀ f ret : Str, 47 ∉ f → getFilePartLoop ret f = ret := by
    intro f ret hf; rw [getFilePartLoop_spec]; simp [hf]
  have b : ∀ dir f ret : Str, 47 ∉ f → getFilePartLoop ret (dir ++ 47 :: f) = f := by
    intro dir
    induction dir with
    | nil => intro f ret hf; simp [getFilePartLoop, nil f f hf]
    | cons c dir ih => intro f ret hf; simp [getFilePartLoop]; exact ih f _ hf
  constructor
  · intro h
    by_cases hs : (47 : UInt8) ∈ s
    · obtain ⟨x, y, hxy, hy⟩ : ∃ x y, s = x ++ 47 :: y ∧ 47 ∉ y := by
        clear h
        induction s with
        | nil => simp at hs
        | cons c s ih =>
          by_cases h2 : (47 : UInt8) ∈ s
          · obtain ⟨x, y, e, hy⟩ := ih h2; exact ⟨c :: x, y, by simp [e], hy⟩
          · have : c = 47 := by simpa [h2, eq_comm] using hs
            exact ⟨[], s, by simp [this], h2⟩
      have : getFilePart s = y := by rw [hxy]; exact b x y _ hy
      rw [← h, this]
      exact ⟨hy, .inr ⟨x, by simp [hxy]⟩⟩
    · rw [a s hs] at h; subst h; exact ⟨hs, .inl rfl⟩
  · rintro ⟨hf, rfl | ⟨dir, rfl⟩⟩
    · exact a _ hf
    · simp only [List.append_assoc, List.cons_append, List.nil_append]
      exact b dir f _ hf

/-- C63. The file looked up for an attached file has no directory part. -/
theorem getFilePart_no_dir (s : Str) : 47 ∉ getFilePart s :=
  ((getFilePart_iff s _).1 rfl).1

/-- C53. When everything fits, the full path is the directory, one `/`, and the file. -/
theorem makeFullPath_fits (path file : Str) (size : Nat) (hp : path ≠ [])
    (h : path.length + file.length + 3 ≤ size) :
    makeFullPath path file size =
      (if path.getLast? = some 47 then path else path ++ [47]) ++ file := by
  have e : mystrncpy path size = path := List.take_of_length_le (by omega)
  simp only [makeFullPath, e]
  by_cases hl : path.getLast? = some 47
  · have c : ¬ (path ≠ [] ∧ path.getLast? ≠ some 47 ∧ path.length + 1 < size) := by simp [hl]
    rw [if_neg c, if_pos hl]
    rw [if_pos (by omega), mystrncpy, List.take_of_length_le (by omega)]
  · have c : (path ≠ [] ∧ path.getLast? ≠ some 47 ∧ path.length + 1 < size) := ⟨hp, hl, by omega⟩
    rw [if_pos c, if_neg hl]
    have l : (path ++ [47]).length = path.length + 1 := by simp
    rw [if_pos (by omega), mystrncpy, List.take_of_length_le (by omega)]

/-- C53. In an empty directory string the path is the file itself. -/
theorem makeFullPath_nodir (file : Str) (size : Nat) (h : file.length + 2 ≤ size) :
    makeFullPath [] file size = file := by
  simp only [makeFullPath, mystrncpy, List.take_nil]
  simp only [ne_eq, not_true_eq_false, false_and, if_false, List.length_nil, List.nil_append]
  rw [if_pos (by omega), List.take_of_length_le (by omega)]

/-- C53. Never overflows: the result and its terminator fit the destination. -/
theorem makeFullPath_bounds (path file : Str) (size : Nat) (hs : 0 < size) :
    (makeFullPath path file size).length < size := by
  have h1 : (mystrncpy path size).length ≤ size - 1 := by simp [mystrncpy]; omega
  simp only [makeFullPath]
  generalize mystrncpy path size = d at *
  have key : ∀ d : Str, d.length ≤ size - 1 →
      (if size - d.length - 1 > 0 then d ++ mystrncpy file (size - d.length - 1) else d).length < size := by
    intro d hd
    split
    · simp [mystrncpy]; omega
    · omega
  apply key
  split
  · simp; omega
  · exact h1

/-- C53. Splitting a full path gives back the file name. -/
theorem getFilePart_makeFullPath (path file : Str) (size : Nat) (hf : 47 ∉ file)
    (h : path.length + file.length + 3 ≤ size) : getFilePart (makeFullPath path file size) = file := by
  by_cases hp : path = []
  · subst hp; simp only [List.length_nil] at h
    rw [makeFullPath_nodir file size (by omega), getFilePart_iff]; exact ⟨hf, .inl rfl⟩
  · rw [makeFullPath_fits path file size hp h, getFilePart_iff]
    refine ⟨hf, .inr ?_⟩
    split
    · rename_i hl
      obtain ⟨ys, rfl⟩ := List.getLast?_eq_some_iff.1 hl
      exact ⟨ys, by simp⟩
    · exact ⟨path, by simp⟩

/-- C53 (violated when the name does not fit). Two different files of one directory get the same
path: the tail of the name is dropped silently. -/
theorem makeFullPath_truncates :
    makeFullPath b!"/in" b!"a1" 6 = makeFullPath b!"/in" b!"a2" 6 := by decide

example : makeFullPath b!"/in" b!"a.pkt" 100 = b!"/in/a.pkt" ∧ getFilePart b!"/in/a.pkt" = b!"a.pkt" := by
  decide

/-! ## C36: patterns -/

/-- Patterns in which `*` is only the last character. -/
def StarOnlyLast (p : Str) : Prop := ∀ a b, p = a ++ 42 :: b → b = []

theorem glob_star (s : Str) : Glob b!"*" s := by
  induction s with
  | nil => exact .star_nil .nil
  | cons c s ih => exact .star_cons ih

/-- C36. With `*` only at the end, a pattern matches exactly the strings it documents. -/
theorem osMatchPattern_iff (p s : Str) (hp : StarOnlyLast p) :
    osMatchPattern p s = true ↔ Glob p s := by
  induction p generalizing s with
  | nil =>
    cases s with
    | nil => simp [osMatchPattern]; exact .nil
    | cons c s => simp [osMatchPattern]; intro h; cases h
  | cons a p ih =>
    by_cases ha : a = 42
    · subst ha
      have : p = [] := hp [] p rfl
      subst this
      simp [osMatchPattern, glob_star]
    · have hp' : StarOnlyLast p := fun x y e => hp (a :: x) y (by simp [e])
      cases s with
      | nil =>
        simp [osMatchPattern, ha]
        intro h; cases h; exact ha rfl
      | cons c s =>
        simp only [osMatchPattern, ha, if_false]
        by_cases h63 : a = 63
        · subst h63
          simp only [ne_eq, not_true_eq_false, false_and, if_false, ih s hp']
          constructor
          · exact .any
          · intro h; cases h with
            | any h => exact h
            | char _ h2 => exact absurd rfl h2
        · by_cases hl : lower a = lower c
          · simp only [ne_eq, h63, hl, not_true_eq_false, and_false, if_false, ih s hp']
            constructor
            · exact .char ha h63 hl
            · intro h; cases h with
              | star_nil => exact absurd rfl ha
              | star_cons => exact absurd rfl ha
              | any => exact absurd rfl h63
              | char _ _ _ h => exact h
          · simp only [ne_eq, h63, hl, not_false_eq_true, and_self, if_true]
            constructor
            · simp
            · intro h; cases h with
              | star_nil => exact absurd rfl ha
              | star_cons => exact absurd rfl ha
              | any => exact absurd rfl h63
              | char _ _ h => exact absurd h hl

/-- C36. In general every documented match is accepted... -/
theorem osMatchPattern_complete (p s : Str) (h : Glob p s) : osMatchPattern p s = true := by
  induction h with
  | nil => rfl
  | star_nil => simp [osMatchPattern]
  | star_cons => simp [osMatchPattern]
  | any _ ih => simp [osMatchPattern, ih]
  | char h1 h2 h3 _ ih => simp [osMatchPattern, ih, h1, h2, h3]

/-- C36 (violated). ... but everything after `*` is ignored: `*.LOCAL` matches `FIDO.GLOBAL`, which
the documented meaning excludes. -/
theorem osMatchPattern_ignores_after_star :
    osMatchPattern b!"*.LOCAL" b!"A.B" = true ∧ ¬ Glob b!"*.LOCAL" b!"A.B" := by
  refine ⟨by decide, ?_⟩
  intro h
  have dot : ∀ s : Str, Glob b!".LOCAL" s → s.length = 6 := by
    intro s h
    have := fun (a : UInt8) (p s : Str) (h : Glob (a :: p) s) (h1 : a ≠ 42) (h2 : a ≠ 63) =>
      show ∃ c s', s = c :: s' ∧ Glob p s' by
        cases h with
        | star_nil => exact absurd rfl h1
        | star_cons => exact absurd rfl h1
        | any => exact absurd rfl h2
        | char _ _ _ h => exact ⟨_, _, rfl, h⟩
    obtain ⟨_, _, rfl, h1⟩ := this _ _ _ h (by decide) (by decide)
    obtain ⟨_, _, rfl, h2⟩ := this _ _ _ h1 (by decide) (by decide)
    obtain ⟨_, _, rfl, h3⟩ := this _ _ _ h2 (by decide) (by decide)
    obtain ⟨_, _, rfl, h4⟩ := this _ _ _ h3 (by decide) (by decide)
    obtain ⟨_, _, rfl, h5⟩ := this _ _ _ h4 (by decide) (by decide)
    obtain ⟨_, _, rfl, h6⟩ := this _ _ _ h5 (by decide) (by decide)
    cases h6; rfl
  have star : ∀ p s, Glob p s → p = b!"*.LOCAL" → 6 ≤ s.length := by
    intro p s h
    induction h with
    | nil => intro h; cases h
    | star_nil h => intro e; cases e; have := dot _ h; omega
    | star_cons _ ih => intro e; have := ih e; simp; omega
    | any => intro e; cases e
    | char h => intro e; cases e; exact absurd rfl h
  have := star _ _ h rfl
  simp at this

theorem starOnlyLast_of (p : Str) (h : 42 ∉ p.dropLast) : StarOnlyLast p := by
  rintro a b rfl
  cases b with
  | nil => rfl
  | cons c b => exact absurd (by rw [List.dropLast_append_of_ne_nil (by simp)]; simp) h

example : StarOnlyLast b!"FIDO.??*" ∧ osMatchPattern b!"FIDO.??*" b!"fido.abc" = true :=
  ⟨starOnlyLast_of _ (by decide), by decide⟩

/-! ## C56: file name classes -/

theorem lower_idem (c : UInt8) : lower (lower c) = lower c := by
  have : ∀ c : UInt8, lower (lower c) = lower c := by decide +kernel
  exact this c

theorem eqi_iff (a b : Str) : eqi a b = true ↔ a.map lower = b.map lower := by simp [eqi]

theorem ending_iff (s e : Str) (he : e.map lower = e) :
    (e.length ≤ s.length ∧ eqi (s.drop (s.length - e.length)) e = true) ↔ HasEnding s e := by
  constructor
  · rintro ⟨h1, h2⟩
    rw [eqi_iff, he] at h2
    exact ⟨s.take (s.length - e.length), s.drop (s.length - e.length), by simp, h2⟩
  · rintro ⟨p, q, rfl, hq⟩
    have : q.length = e.length := by rw [← hq]; simp
    refine ⟨by simp; omega, ?_⟩
    rw [eqi_iff, he]
    simp [← this, hq]

/-- C56. Each file class is its ending, in any case. -/
theorem isNewPkt_iff (f : Str) : isNewPkt f = true ↔ HasEnding f b!".newpkt" := by
  rw [← ending_iff f b!".newpkt" (by decide)]; simp [isNewPkt]
theorem isPktTmp_iff (f : Str) : isPktTmp f = true ↔ HasEnding f b!".pkttmp" := by
  rw [← ending_iff f b!".pkttmp" (by decide)]; simp [isPktTmp]
theorem isOrphan_iff (f : Str) : isOrphan f = true ↔ HasEnding f b!".orphan" := by
  rw [← ending_iff f b!".orphan" (by decide)]; simp [isOrphan]
theorem isBad_iff (f : Str) : isBad f = true ↔ HasEnding f b!".bad" ∧ 4 < f.length := by
  rw [← ending_iff f b!".bad" (by decide)]; simp [isBad]
  constructor
  · rintro ⟨a, b⟩; exact ⟨⟨by omega, b⟩, a⟩
  · rintro ⟨⟨a, b⟩, c⟩; exact ⟨c, b⟩

theorem split8 (f : Str) (hl : f.length = 12) : ∃ n d e, f = n ++ d :: e ∧ n.length = 8 ∧ e.length = 3 := by
  refine ⟨f.take 8, f[8], f.drop 9, ?_, by simp; omega, by simp; omega⟩
  have : f.drop 8 = f[8] :: f.drop 9 := List.drop_eq_getElem_cons (by omega)
  rw [← this]; simp

/-- C56. A packet is an 8.3 name with extension `pkt` in any case. -/
theorem isPkt_iff (f : Str) : isPkt f = true ↔ HasEnding f b!".pkt" ∧ f.length = 12 := by
  constructor
  · intro h
    simp only [isPkt, Bool.and_eq_true, beq_iff_eq] at h
    obtain ⟨⟨h1, h2⟩, h3⟩ := h
    obtain ⟨n, d, e, rfl, hn, he⟩ := split8 f h1
    simp [List.getElem?_append_right, hn] at h2; subst h2
    have : (n ++ 46 :: e).drop 9 = e := by
      rw [List.drop_append, hn]; simp [List.drop_eq_nil_of_le, hn]
    rw [this, eqi_iff] at h3
    exact ⟨⟨n, 46 :: e, rfl, by simp only [List.map_cons, h3]; decide⟩, h1⟩
  · rintro ⟨⟨p, q, rfl, hq⟩, hl⟩
    cases q with
    | nil => simp at hq
    | cons d e =>
      simp only [List.map_cons, List.cons.injEq] at hq
      have hd : d = 46 := by
        have : ∀ d : UInt8, lower d = 46 → d = 46 := by decide +kernel
        exact this d hq.1
      subst hd
      have he : e.length = 3 := by have := congrArg List.length hq.2; simpa using this
      have hp : p.length = 8 := by simp at hl; omega
      simp only [isPkt, hl, Bool.and_eq_true, beq_iff_eq, true_and]
      refine ⟨by simp [List.getElem?_append_right, hp], ?_⟩
      have : (p ++ 46 :: e).drop 9 = e := by
        rw [List.drop_append, hp]; simp [List.drop_eq_nil_of_le, hp]
      rw [this, eqi_iff, hq.2]; decide

/-- C56. Two endings of which neither ends in the other are never both present. -/
theorem HasEnding_disjoint (f a b : Str) (hab : a.length ≤ b.length) (h : b.drop (b.length - a.length) ≠ a)
    (ha : HasEnding f a) (hb : HasEnding f b) : False := by
  obtain ⟨p, q, rfl, hq⟩ := ha
  obtain ⟨p', q', e, hq'⟩ := hb
  apply h
  have lq : q.length = a.length := by rw [← hq]; simp
  have lq' : q'.length = b.length := by rw [← hq']; simp
  have := congrArg List.length e
  simp at this
  have e2 : q = (p' ++ q').drop (p.length) := by rw [← e]; simp
  have e3 : (p' ++ q').drop p.length = q'.drop (b.length - a.length) := by
    rw [List.drop_append]
    have h1 : p'.drop p.length = [] := List.drop_eq_nil_of_le (by omega)
    rw [h1, List.nil_append]; congr 1; omega
  subst hq hq'
  rw [← List.map_drop, ← e3, ← e2]

/-- C56. No name is in two of the classes packet, new packet, temporary packet, orphan, bad, bundle. -/
theorem file_classes_disjoint (f : Str) :
    ([isArc f, isPkt f, isNewPkt f, isPktTmp f, isOrphan f, isBad f].filter id).length ≤ 1 := by
  have arc : isArc f = true → isPkt f = false ∧ isNewPkt f = false ∧ isPktTmp f = false ∧
      isOrphan f = false ∧ isBad f = false := by
    intro h
    simp only [isArc, Bool.and_eq_true, beq_iff_eq, Bool.or_eq_true] at h
    obtain ⟨⟨⟨h1, h2⟩, h3⟩, h4⟩ := h
    obtain ⟨n, d, e, rfl, hn, he⟩ := split8 f h1
    simp [List.getElem?_append_right, hn] at h2; subst h2
    match e, he with
    | [x, y, z], _ =>
      match n, hn with
      | [n0, n1, n2, n3, n4, n5, n6, n7], _ =>
        have arcdot : ∀ c : UInt8, arcNameChar c = true → lower c ≠ 46 := by decide +kernel
        simp only [List.cons_append, List.nil_append, List.take, List.all_cons, Bool.and_eq_true,
          List.all_nil] at h3
        simp only [List.cons_append, List.nil_append, List.drop, List.take, eqi_iff, List.map_cons,
          List.map_nil, List.cons.injEq, and_true] at h4
        have d46 : lower 46 = 46 := by decide
        refine ⟨?_, ?_, ?_, ?_, ?_⟩
        · simp [isPkt, eqi]
          intro h5
          exfalso
          rcases h4 with (((((h4 | h4) | h4) | h4) | h4) | h4) | h4 <;>
            (rw [h4.1] at h5; revert h5; decide)
        · simp [isNewPkt, eqi]
          intro h; exfalso; exact arcdot n5 h3.2.2.2.2.2.1 (by rw [h]; decide)
        · simp [isPktTmp, eqi]
          intro h; exfalso; exact arcdot n5 h3.2.2.2.2.2.1 (by rw [h]; decide)
        · simp [isOrphan, eqi]
          intro h; exfalso; exact arcdot n5 h3.2.2.2.2.2.1 (by rw [h]; decide)
        · simp [isBad, eqi]
          intro h5 h6 h7
          rcases h4 with (((((h4 | h4) | h4) | h4) | h4) | h4) | h4 <;>
            (rw [h4.1] at h5; revert h5; decide)
  have pk : isPkt f = true → HasEnding f b!".pkt" := fun h => ((isPkt_iff f).1 h).1
  have nw : isNewPkt f = true → HasEnding f b!".newpkt" := (isNewPkt_iff f).1
  have tm : isPktTmp f = true → HasEnding f b!".pkttmp" := (isPktTmp_iff f).1
  have orp : isOrphan f = true → HasEnding f b!".orphan" := (isOrphan_iff f).1
  have bd : isBad f = true → HasEnding f b!".bad" := fun h => ((isBad_iff f).1 h).1
  have dj := HasEnding_disjoint f
  cases ha : isArc f with
  | true => obtain ⟨h1, h2, h3, h4, h5⟩ := arc ha; simp [h1, h2, h3, h4, h5]
  | false =>
    cases h1 : isPkt f <;> cases h2 : isNewPkt f <;> cases h3 : isPktTmp f <;> cases h4 : isOrphan f <;>
      cases h5 : isBad f <;> first
      | (simp; done)
      | exact (dj _ _ (by decide) (by decide) (pk h1) (nw h2)).elim
      | exact (dj _ _ (by decide) (by decide) (pk h1) (tm h3)).elim
      | exact (dj _ _ (by decide) (by decide) (pk h1) (orp h4)).elim
      | exact (dj _ _ (by decide) (by decide) (pk h1) (bd h5)).elim
      | exact (dj _ _ (by decide) (by decide) (nw h2) (tm h3)).elim
      | exact (dj _ _ (by decide) (by decide) (nw h2) (orp h4)).elim
      | exact (dj _ _ (by decide) (by decide) (bd h5) (nw h2)).elim
      | exact (dj _ _ (by decide) (by decide) (tm h3) (orp h4)).elim
      | exact (dj _ _ (by decide) (by decide) (bd h5) (tm h3)).elim
      | exact (dj _ _ (by decide) (by decide) (bd h5) (orp h4)).elim

example : isPkt b!"12345678.PKT" = true ∧ isArc b!"0000ff3a.mo0" = true ∧ isBad b!"x.BAD" = true := by
  decide

/-! ## C58: group flags -/

/-- C58. Group access: the letter occurs in the node's group string. -/
theorem checkFlags_iff (group : UInt8) (node : Str) (h : node.length < 256) :
    checkFlags group node = some (decide (group ∈ node)) := by
  have gen : ∀ (f : Nat) (c : UInt8), c.toNat + f ≥ node.length + 1 → c.toNat ≤ node.length →
      checkFlagsLoop group node f c = some (decide (group ∈ node.drop c.toNat)) := by
    intro f
    induction f with
    | zero => intro c h1 h2; omega
    | succ f ih =>
      intro c h1 h2
      simp only [checkFlagsLoop]
      by_cases hc : c.toNat < node.length
      · rw [if_pos hc]
        have hd : node.drop c.toNat = node[c.toNat] :: node.drop (c.toNat + 1) :=
          List.drop_eq_getElem_cons hc
        have hs : (c + 1).toNat = c.toNat + 1 := by
          rw [UInt8.toNat_add]; simp; omega
        rw [List.getElem?_eq_getElem hc]
        by_cases he : node[c.toNat] = group
        · rw [if_pos (by rw [he]), hd]; simp [he]
        · rw [if_neg (by simpa using he), ih (c + 1) (by omega) (by omega), hs]
          have : group ∈ node.drop c.toNat ↔ group ∈ node.drop (c.toNat + 1) := by
            rw [hd, List.mem_cons]; simp only [Ne.symm he, false_or]
          simp only [this]
      · rw [if_neg hc]
        have : node.drop c.toNat = [] := List.drop_eq_nil_of_le (by omega)
        simp [this]
  have := gen 257 0 (by simp; omega) (by simp)
  simpa [checkFlags] using this

/-- C58. An area without a group gives access to nobody. -/
theorem checkFlags_nogroup (node : Str) (h : node.length < 256) (hn : NoNul node) :
    checkFlags 0 node = some false := by
  rw [checkFlags_iff 0 node h]; simpa [NoNul] using hn

/-- C58 (violated for very long strings). The 8-bit counter makes the search of a group string of
256 characters or more endless when the letter is not among the first 256. -/
theorem checkFlags_diverges (group : UInt8) (node : Str) (h : 256 ≤ node.length)
    (hg : group ∉ node.take 256) : checkFlags group node = none := by
  have gen : ∀ (f : Nat) (c : UInt8), checkFlagsLoop group node f c = none := by
    intro f
    induction f with
    | zero => intro c; rfl
    | succ f ih =>
      intro c
      simp only [checkFlagsLoop]
      have hc := c.toNat_lt
      rw [if_pos (by omega), if_neg, ih]
      intro he
      apply hg
      rw [List.mem_iff_getElem?]
      exact ⟨c.toNat, by rw [List.getElem?_take]; simp [he]; omega⟩
  exact gen _ _

/-- C58. Group letters in the configuration are accepted exactly when they are letters, and are
stored in upper case. -/
theorem correctFlags_iff (s : Str) :
    (correctFlags s).2 = true ↔ ∀ c ∈ s, (65 ≤ c ∧ c ≤ 90) ∨ (97 ≤ c ∧ c ≤ 122) := by
  have hc : ∀ c : UInt8, ¬(upper c < 65 ∨ upper c > 90) ↔ (65 ≤ c ∧ c ≤ 90) ∨ (97 ≤ c ∧ c ≤ 122) := by
    decide +kernel
  induction s with
  | nil => simp [correctFlags]
  | cons c s ih =>
    simp only [correctFlags, List.mem_cons, forall_eq_or_imp, ← hc c, ← ih]
    split <;> simp_all

theorem correctFlags_upper (s : Str) (h : (correctFlags s).2 = true) :
    (correctFlags s).1 = s.map upper := by
  induction s with
  | nil => rfl
  | cons c s ih =>
    simp only [correctFlags] at h ⊢
    split at h
    · simp at h
    · rw [if_neg (by assumption)]; simp [ih h]

example : checkFlags 66 b!"ABC" = some true ∧ (b!"ABC").length < 256 := by decide

/-! ## C64: stripping blanks -/

theorem striptrail_iff (s t : Str) :
    striptrail s = .ok t ↔ ∃ tail, s = t ++ tail ∧ (∀ c ∈ tail, below33 c = true) ∧
      ∃ c, t.getLast? = some c ∧ below33 c = false := by
  have loop : ∀ s t : Str, striptrailLoop s = .ok t ↔ ∃ a, s = a ++ t ∧ (∀ c ∈ a, below33 c = true) ∧
      ∃ c, t.head? = some c ∧ below33 c = false := by
    intro s
    induction s with
    | nil => intro t; simp [striptrailLoop]; intro h; simp [h]
    | cons c s ih =>
      intro t
      simp only [striptrailLoop]
      by_cases hc : below33 c = true
      · rw [if_pos hc, ih]
        constructor
        · rintro ⟨a, rfl, h1, h2⟩; exact ⟨c :: a, by simp, by simpa [hc] using h1, h2⟩
        · rintro ⟨a, e, h1, d, h2, h3⟩
          cases a with
          | nil => simp at e; subst e; simp at h2; subst h2; simp [hc] at h3
          | cons x a =>
            simp at e
            exact ⟨a, e.2, fun c hc => h1 c (by simp [hc]), d, h2, h3⟩
      · rw [if_neg hc]
        constructor
        · intro h; cases h; exact ⟨[], by simp, by simp, c, rfl, by simpa using hc⟩
        · rintro ⟨a, e, h1, d, h2, h3⟩
          cases a with
          | nil => simp at e; rw [e]
          | cons x a => simp at e; exact absurd (h1 x (by simp)) (by rw [← e.1]; exact hc)
  have m : striptrail s = .ok t ↔ striptrailLoop s.reverse = .ok t.reverse := by
    simp only [striptrail]
    cases striptrailLoop s.reverse with
    | error e => simp [Except.map]
    | ok r =>
      simp only [Except.map, Except.ok.injEq]
      constructor
      · rintro rfl; simp
      · intro h; rw [h]; simp
  rw [m, loop]
  constructor
  · rintro ⟨a, e, h1, c, h2, h3⟩
    refine ⟨a.reverse, ?_, by simpa using h1, c, by simpa using h2, h3⟩
    have := congrArg List.reverse e
    simpa using this
  · rintro ⟨a, rfl, h1, c, h2, h3⟩
    exact ⟨a.reverse, by simp, by simpa using h1, c, by simpa using h2, h3⟩

/-- C64 (partial: 7-bit text with at least one visible character). Exactly the trailing blanks and
control characters are removed. -/
theorem striptrail_partial (s t tail : Str) (hs : ∀ c ∈ s, c.toNat < 128) (e : s = t ++ tail)
    (ht : ∀ c ∈ tail, BlankOrControl c) (hl : ∃ c, t.getLast? = some c ∧ ¬ BlankOrControl c) :
    striptrail s = .ok t := by
  have h1 : ∀ c : UInt8, c.toNat ≤ 32 → below33 c = true := by decide +kernel
  have h2 : ∀ c : UInt8, ¬ c.toNat ≤ 32 → c.toNat < 128 → below33 c = false := by decide +kernel
  rw [striptrail_iff]
  obtain ⟨c, hc, hb⟩ := hl
  refine ⟨tail, e, fun c hc => h1 c (ht c hc), c, hc, h2 c hb (hs c ?_)⟩
  rw [e]; exact List.mem_append_left _ (List.mem_of_getLast? hc)

/-- C64 (violated). `char` is signed: trailing non-ASCII letters count as blanks and are removed. -/
theorem striptrail_drops_nonascii (s : Str) (c : UInt8) (hc : 128 ≤ c) :
    striptrail (s ++ [c]) = striptrail s := by
  simp [striptrail, striptrailLoop, below33, hc]

/-- C64 (violated). A blank string makes it read before its first byte. -/
theorem striptrail_blank (s : Str) (h : ∀ c ∈ s, below33 c = true) : striptrail s = .error .oobRead := by
  cases hs : striptrail s with
  | ok t =>
    obtain ⟨tail, e, _, c, hc, hb⟩ := (striptrail_iff s t).1 hs
    have := h c (by rw [e]; exact List.mem_append_left _ (List.mem_of_getLast? hc))
    simp [hb] at this
  | error x =>
    have : ∀ s, ∀ x, striptrailLoop s = .error x → x = .oobRead := by
      intro s
      induction s with
      | nil => intro x h; simpa [striptrailLoop] using h.symm
      | cons c s ih => intro x h; simp only [striptrailLoop] at h; split at h; exact ih x h; simp at h
    simp only [striptrail] at hs
    cases hl : striptrailLoop s.reverse with
    | ok r => simp [hl, Except.map] at hs
    | error y => simp [hl, Except.map] at hs; rw [← hs, this _ _ hl]

example : striptrail b!"ab c  \n" = .ok b!"ab c" := by decide

end CM
