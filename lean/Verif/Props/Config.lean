/-
C62 - C67, C98: output formats and addresses, wave model, force models, history length, commands.
-/
import Mathlib.Data.List.Infix
import Mathlib.Data.List.Forall2
import Mathlib.Tactic.Linarith
import Mathlib.Tactic.NormNum
import Mathlib.Algebra.Order.Ring.Rat
import Mathlib.Algebra.Field.Rat
import Verif.Model.Config

namespace Xdyn.Config

/-! ### C62: output format -/

/-- Specification: the documented extensions of the output files and their formats -/
def formats : List (String × String) :=
  [(".h5", "hdf5"), (".hdf5", "hdf5"), (".csv", "csv"), (".tsv", "tsv"), (".json", "json")]

/-- Specification: the extensions of the files of wave heights -/
def waveExtensions : List String := [".h5", ".hdf5", ".H5", ".HDF5"]

theorem testExt_eq (s : Text) (ext f : String) (next : Except Err String)
    (h : ext.toList.length ≤ s.length) :
    testExt s ext f next = if ext.toList <:+ s then .ok f else next := by
  unfold testExt lastChars
  rw [if_pos h]
  simp only [List.suffix_iff_eq_drop]
  by_cases hx : s.drop (s.length - ext.toList.length) = ext.toList
  · rw [if_pos hx, if_pos hx.symm]
  · rw [if_neg hx, if_neg (fun e => hx e.symm)]

theorem testExt_short (s : Text) (ext f : String) (next : Except Err String)
    (h : s.length < ext.toList.length) :
    testExt s ext f next = .error (.throw "std::out_of_range") := by
  unfold testExt lastChars
  rw [if_neg (by omega)]

theorem suffix_excl {a b s : Text} (ha : a <:+ s) (hab : ¬ a <:+ b) (hba : ¬ b <:+ a) : ¬ b <:+ s := by
  intro hb
  rcases List.suffix_or_suffix_of_suffix ha hb with h | h
  · exact hab h
  · exact hba h

/-- C62 (names with a stem): the extension decides of the format -/
theorem getFormat_extension (stem : Text) (hs : stem ≠ []) (e f : String) (h : (e, f) ∈ formats) :
    getFormat (stem ++ e.toList) = .ok f := by
  obtain ⟨c, stem', rfl⟩ := List.exists_cons_of_ne_nil hs
  have hsuf : e.toList <:+ (c :: stem') ++ e.toList := List.suffix_append _ _
  generalize hS : (c :: stem') ++ e.toList = S at *
  have hlen : S.length = stem'.length + 1 + e.toList.length := by
    rw [← hS]; simp only [List.length_append, List.length_cons]
  simp only [formats, List.mem_cons, Prod.mk.injEq, List.not_mem_nil, or_false] at h
  have x {a b : Text} (ha : a <:+ S) (hab : ¬ a <:+ b) (hba : ¬ b <:+ a) := suffix_excl ha hab hba
  rcases h with ⟨rfl, rfl⟩ | ⟨rfl, rfl⟩ | ⟨rfl, rfl⟩ | ⟨rfl, rfl⟩ | ⟨rfl, rfl⟩
  · have hl : (".h5".toList).length = 3 := by decide +kernel
    unfold getFormat
    rw [if_neg (by omega), if_neg (by omega), testExt_eq _ _ _ _ (by omega), if_pos hsuf]
  · have hl : (".hdf5".toList).length = 5 := by decide +kernel
    have hl3 : (".h5".toList).length = 3 := by decide +kernel
    unfold getFormat
    rw [if_neg (by omega), if_neg (by omega), testExt_eq _ _ _ _ (by omega),
      if_neg (x hsuf (by decide +kernel) (by decide +kernel)), testExt_eq _ _ _ _ (by omega), if_pos hsuf]
  · have hl : (".csv".toList).length = 4 := by decide +kernel
    have hl3 : (".h5".toList).length = 3 := by decide +kernel
    have hl5 : (".hdf5".toList).length = 5 := by decide +kernel
    unfold getFormat
    rw [if_neg (by omega), if_neg (by omega), testExt_eq _ _ _ _ (by omega),
      if_neg (x hsuf (by decide +kernel) (by decide +kernel)), testExt_eq _ _ _ _ (by omega),
      if_neg (x hsuf (by decide +kernel) (by decide +kernel)), testExt_eq _ _ _ _ (by omega), if_pos hsuf]
  · have hl : (".tsv".toList).length = 4 := by decide +kernel
    have hl4 : (".csv".toList).length = 4 := by decide +kernel
    have hl3 : (".h5".toList).length = 3 := by decide +kernel
    have hl5 : (".hdf5".toList).length = 5 := by decide +kernel
    unfold getFormat
    rw [if_neg (by omega), if_neg (by omega), testExt_eq _ _ _ _ (by omega),
      if_neg (x hsuf (by decide +kernel) (by decide +kernel)), testExt_eq _ _ _ _ (by omega),
      if_neg (x hsuf (by decide +kernel) (by decide +kernel)), testExt_eq _ _ _ _ (by omega),
      if_neg (x hsuf (by decide +kernel) (by decide +kernel)), testExt_eq _ _ _ _ (by omega), if_pos hsuf]
  · have hl : (".json".toList).length = 5 := by decide +kernel
    have hl4 : (".csv".toList).length = 4 := by decide +kernel
    have hl4' : (".tsv".toList).length = 4 := by decide +kernel
    have hl3 : (".h5".toList).length = 3 := by decide +kernel
    have hl5 : (".hdf5".toList).length = 5 := by decide +kernel
    unfold getFormat
    rw [if_neg (by omega), if_neg (by omega), testExt_eq _ _ _ _ (by omega),
      if_neg (x hsuf (by decide +kernel) (by decide +kernel)), testExt_eq _ _ _ _ (by omega),
      if_neg (x hsuf (by decide +kernel) (by decide +kernel)), testExt_eq _ _ _ _ (by omega),
      if_neg (x hsuf (by decide +kernel) (by decide +kernel)), testExt_eq _ _ _ _ (by omega),
      if_neg (x hsuf (by decide +kernel) (by decide +kernel)), testExt_eq _ _ _ _ (by omega), if_pos hsuf]

example : ("run.1".toList ≠ []) ∧ (".json", "json") ∈ formats ∧
    getFormat "run.1.json".toList = .ok "json" := by decide +kernel

/-- C62 (other extensions): a name of a length other than 4 without one of the five extensions is
refused with InvalidInputException. Missing: names of exactly four characters
(`getFormat_four_characters`). -/
theorem getFormat_unknown_partial (s : Text) (h0 : s ≠ []) (h4 : s.length ≠ 4)
    (h : ∀ e ∈ formats, ¬ e.1.toList <:+ s) : getFormat s = .error invalidInput := by
  have hpos : s.length ≠ 0 := by simpa using h0
  unfold getFormat
  rw [if_neg hpos]
  by_cases h3 : s.length ≤ 3
  · rw [if_pos h3]
  · have hl4 : (".csv".toList).length = 4 := by decide +kernel
    have hl4' : (".tsv".toList).length = 4 := by decide +kernel
    have hl3 : (".h5".toList).length = 3 := by decide +kernel
    have hl5 : (".hdf5".toList).length = 5 := by decide +kernel
    have hl5' : (".json".toList).length = 5 := by decide +kernel
    rw [if_neg h3, testExt_eq _ _ _ _ (by omega), testExt_eq _ _ _ _ (by omega),
      testExt_eq _ _ _ _ (by omega), testExt_eq _ _ _ _ (by omega), testExt_eq _ _ _ _ (by omega)]
    rw [if_neg (h (".h5", "hdf5") (by decide)), if_neg (h (".hdf5", "hdf5") (by decide)),
      if_neg (h (".csv", "csv") (by decide)), if_neg (h (".tsv", "tsv") (by decide)),
      if_neg (h (".json", "json") (by decide))]

example : ∀ e ∈ formats, ¬ e.1.toList <:+ "out.txt".toList := by decide +kernel

/-- C62, refutation: every name of four characters that does not end with .h5 is refused with
std::out_of_range (even ".csv" and ".tsv") -/
theorem getFormat_four_characters (s : Text) (h4 : s.length = 4) (h : ¬ ".h5".toList <:+ s) :
    getFormat s = .error (.throw "std::out_of_range") := by
  have hl3 : (".h5".toList).length = 3 := by decide +kernel
  have hl5 : (".hdf5".toList).length = 5 := by decide +kernel
  unfold getFormat
  rw [if_neg (by omega), if_neg (by omega), testExt_eq _ _ _ _ (by omega), if_neg h,
    testExt_short _ _ _ _ (by omega)]

example : getFormat "data".toList = .error (.throw "std::out_of_range") ∧
    getFormat "data1".toList = .error invalidInput := by decide +kernel

/-- C62: every accepted name ends with the extension of its format, or is empty (the standard output) -/
theorem getFormat_sound (s : Text) (f : String) (h : getFormat s = .ok f) :
    s = [] ∧ f = "tsv" ∨ ∃ e, (e, f) ∈ formats ∧ e.toList <:+ s := by
  by_cases h0 : s = []
  · subst h0
    simp only [getFormat, List.length_nil, if_pos] at h
    cases h
    exact .inl ⟨rfl, rfl⟩
  right
  by_contra hc
  by_cases h4 : s.length = 4
  · by_cases h5 : ".h5".toList <:+ s
    · unfold getFormat at h
      have hl3 : (".h5".toList).length = 3 := by decide +kernel
      rw [if_neg (by omega), if_neg (by omega), testExt_eq _ _ _ _ (by omega), if_pos h5] at h
      cases h
      exact hc ⟨".h5", by decide, h5⟩
    · rw [getFormat_four_characters s h4 h5] at h; cases h
  · by_cases hall : ∀ e ∈ formats, ¬ e.1.toList <:+ s
    · rw [getFormat_unknown_partial s h0 h4 hall] at h; cases h
    · push Not at hall
      obtain ⟨⟨e, g⟩, hm, hsuf⟩ := hall
      obtain ⟨stem, rfl⟩ := hsuf
      by_cases hst : stem = []
      · subst hst
        have : getFormat ([] ++ e.toList) = .ok g ∨
            getFormat ([] ++ e.toList) = .error invalidInput := by
          have hlen : ([] ++ e.toList).length ≠ 4 := h4
          clear h hc h0 h4
          simp only [formats, List.mem_cons, Prod.mk.injEq, List.not_mem_nil, or_false] at hm
          rcases hm with ⟨rfl, rfl⟩ | ⟨rfl, rfl⟩ | ⟨rfl, rfl⟩ | ⟨rfl, rfl⟩ | ⟨rfl, rfl⟩ <;>
            revert hlen
          · decide +kernel
          · decide +kernel
          · decide +kernel
          · decide +kernel
          · decide +kernel
        rcases this with this | this
        · rw [this] at h
          cases h
          exact hc ⟨e, hm, List.suffix_append _ _⟩
        · rw [this] at h
          cases h
      · rw [getFormat_extension stem hst e g hm] at h
        cases h
        exact hc ⟨e, hm, List.suffix_append _ _⟩

/-- C62 (wave heights): names of at least five characters are accepted exactly when they have one of
the four extensions. Missing: names of four characters (`wave_a_H5`). -/
theorem getFormatForWaveObserver_partial (s : Text) (h5 : 5 ≤ s.length) :
    getFormatForWaveObserver s =
      if ∃ e ∈ waveExtensions, e.toList <:+ s then .ok "hdf5" else .error invalidInput := by
  have a1 : (".h5".toList).length = 3 := by decide +kernel
  have a2 : (".hdf5".toList).length = 5 := by decide +kernel
  have a3 : (".H5".toList).length = 3 := by decide +kernel
  have a4 : (".HDF5".toList).length = 5 := by decide +kernel
  unfold getFormatForWaveObserver
  rw [if_neg (by omega), testExt_eq _ _ _ _ (by omega), testExt_eq _ _ _ _ (by omega),
      testExt_eq _ _ _ _ (by omega), testExt_eq _ _ _ _ (by omega)]
  simp only [waveExtensions, List.mem_cons, List.not_mem_nil, or_false, exists_eq_or_imp,
    exists_eq_left]
  by_cases b1 : ".h5".toList <:+ s
  · simp only [b1, if_true, true_or]
  by_cases b2 : ".hdf5".toList <:+ s
  · simp only [b1, b2, if_true, if_false, true_or, or_true]
  by_cases b3 : ".H5".toList <:+ s
  · simp only [b1, b2, b3, if_true, if_false, true_or, or_true]
  by_cases b4 : ".HDF5".toList <:+ s
  · simp only [b1, b2, b3, b4, if_true, if_false, or_true]
  · simp only [b1, b2, b3, b4, if_false, or_false]

/-- C62, refutation: "a.H5" has a stem and an accepted extension, and std::out_of_range is thrown -/
theorem wave_a_H5 : getFormatForWaveObserver "a.H5".toList = .error (.throw "std::out_of_range") ∧
    getFormatForWaveObserver "ab.H5".toList = .ok "hdf5" := by decide +kernel

/-- C62, refutation: an output file whose name begins with "ws" is taken for a websocket address, and
refused -/
theorem ws_file_refused (s : Text) (h : ¬ "ws://".toList <+: s) (h' : ¬ "wss://".toList <+: s)
    (hw : "ws".toList <+: s) : fromFilename s = .error invalidInput := by
  have e1 : "ws://".toList.isPrefixOf s = false := by
    by_contra hc
    exact h (List.isPrefixOf_iff_prefix.mp (by simpa using hc))
  have e2 : "wss://".toList.isPrefixOf s = false := by
    by_contra hc
    exact h' (List.isPrefixOf_iff_prefix.mp (by simpa using hc))
  have e3 : "ws".toList.isPrefixOf s = true := List.isPrefixOf_iff_prefix.mpr hw
  have n (t : Text) (ht : ¬ "ws".toList <+: t) : s ≠ t := fun e => ht (e ▸ hw)
  unfold fromFilename
  rw [if_neg (by
      rintro (e | e)
      · exact n [] (by decide +kernel) e
      · exact n _ (by decide +kernel) e),
    if_neg (n _ (by decide +kernel)), if_neg (n _ (by decide +kernel)),
    if_neg (by
      rintro (e | e)
      · exact n _ (by decide +kernel) e
      · exact n _ (by decide +kernel) e), if_pos e3]
  have hm : matchUrl s = none := by
    unfold matchUrl
    simp only [e1, e2, Bool.false_eq_true, if_false, ite_self]
  unfold fromUrl
  rw [hm]

example : fromFilename "wsim.csv".toList = .error invalidInput ∧
    fromFilename "sim.csv".toList = .ok { format := "csv", filename := "sim.csv".toList } := by
  decide +kernel

/-! ### C63: websocket addresses -/

/-- Specification: the characters of a host -/
def hostChar (c : Char) : Bool := !(c == '/' || c == ' ' || c == ':')

theorem takeWhile_all {p : Char → Bool} {l : Text} : ∀ c ∈ l.takeWhile p, p c = true := by
  induction l with
  | nil => intro c hc; cases hc
  | cons a l ih =>
    intro c hc
    rw [List.takeWhile_cons] at hc
    by_cases hp : p a = true
    · rw [if_pos hp] at hc
      rcases List.mem_cons.mp hc with rfl | h
      · exact hp
      · exact ih c h
    · rw [if_neg hp] at hc; cases hc

theorem dropWhile_head {p : Char → Bool} {l : Text} {c : Char} {r : Text}
    (h : l.dropWhile p = c :: r) : p c = false := by
  induction l with
  | nil => cases h
  | cons a l ih =>
    rw [List.dropWhile_cons] at h
    by_cases hp : p a = true
    · rw [if_pos hp] at h; exact ih h
    · rw [if_neg hp] at h; cases h; simpa using hp

theorem takeWhile_append_stop {p : Char → Bool} {a b : Text} (ha : ∀ c ∈ a, p c = true)
    (hb : ∀ c ∈ b.head?, p c = false) :
    (a ++ b).takeWhile p = a ∧ (a ++ b).dropWhile p = b := by
  induction a with
  | nil =>
    cases b with
    | nil => exact ⟨rfl, rfl⟩
    | cons c b =>
      have := hb c rfl
      simp [List.takeWhile_cons, List.dropWhile_cons, this]
  | cons c a ih =>
    have hc := ha c List.mem_cons_self
    have := ih (fun c h => ha c (List.mem_cons_of_mem _ h))
    simp [List.takeWhile_cons, List.dropWhile_cons, hc, this.1, this.2]

theorem decimal_nil_of (s : Text) (h : s.takeWhile Char.isDigit = []) :
    decimal (s.takeWhile Char.isDigit) = 0 := by rw [h]; rfl

/-- the text atoi reads: blanks, an optional sign, digits, and something else -/
theorem atoi_pos (s : Text) (n : Int) (h : atoi s = .ok n) (hn : 0 < n) :
    ∃ blanks sign digits junk : Text, s = blanks ++ sign ++ digits ++ junk ∧
      (∀ c ∈ blanks, isSpace c = true) ∧ (sign = [] ∨ sign = ['+']) ∧ digits ≠ [] ∧
      (∀ c ∈ digits, c.isDigit = true) ∧ (∀ c ∈ junk.head?, c.isDigit = false) ∧
      n = decimal digits ∧ n ≤ 2147483647 := by
  unfold atoi at h
  have hs : s = s.takeWhile isSpace ++ s.dropWhile isSpace := List.takeWhile_append_dropWhile.symm
  generalize hb : s.takeWhile isSpace = blanks at hs
  have hblanks : ∀ c ∈ blanks, isSpace c = true := by
    intro c hc; rw [← hb] at hc; exact takeWhile_all _ hc
  generalize hr : s.dropWhile isSpace = r at hs h
  simp only at h
  -- the number
  have key (u : Text) (m : Int) (hm : m = (decimal (u.takeWhile Char.isDigit) : Int)) (hm0 : 0 < m) :
      u.takeWhile Char.isDigit ≠ [] ∧ (∀ c ∈ u.takeWhile Char.isDigit, c.isDigit = true) ∧
        (∀ c ∈ (u.dropWhile Char.isDigit).head?, c.isDigit = false) := by
    refine ⟨?_, takeWhile_all, ?_⟩
    · intro e
      rw [e] at hm
      simp only [decimal, List.foldl_nil] at hm
      simp at hm
      omega
    · intro c hc
      cases hd : u.dropWhile Char.isDigit with
      | nil => rw [hd] at hc; cases hc
      | cons d v =>
        rw [hd] at hc
        simp only [List.head?_cons, Option.mem_def, Option.some.injEq] at hc
        subst hc
        exact dropWhile_head hd
  unfold toInt at h
  by_cases hneg : r.head? = some '-'
  · rw [if_pos hneg] at h
    split at h
    · cases h
      exfalso
      have : (0 : Int) ≤ (decimal (List.takeWhile Char.isDigit r.tail) : Int) := Int.natCast_nonneg _
      omega
    · cases h
  · rw [if_neg hneg] at h
    by_cases hpos : r.head? = some '+'
    · rw [if_pos hpos] at h
      split at h
      · rename_i hle
        cases h
        obtain ⟨k1, k2, k3⟩ := key r.tail _ rfl hn
        refine ⟨blanks, ['+'], _, r.tail.dropWhile Char.isDigit, ?_, hblanks, .inr rfl, k1, k2, k3,
          rfl, hle.2⟩
        rw [hs]
        cases r with
        | nil => cases hpos
        | cons c r =>
          simp only [List.head?_cons, Option.some.injEq] at hpos
          subst hpos
          simp only [List.tail_cons, List.append_assoc, List.takeWhile_append_dropWhile,
            List.cons_append, List.nil_append]
      · cases h
    · rw [if_neg hpos] at h
      split at h
      · rename_i hle
        cases h
        obtain ⟨k1, k2, k3⟩ := key r _ rfl hn
        refine ⟨blanks, [], _, r.dropWhile Char.isDigit, ?_, hblanks, .inl rfl, k1, k2, k3,
          rfl, hle.2⟩
        rw [hs]
        simp only [List.append_nil, List.append_assoc, List.takeWhile_append_dropWhile]
      · cases h

/-- C63 (soundness). An accepted address is 'ws://', a non-empty host without '/', ':' or space, ':',
and a text that begins with (blanks, '+' and) the decimal digits of the port, in 1..65535; the address
and the port of the output are these ones. Missing: something else may follow the port
(`ws_port_junk`). -/
theorem fromUrl_sound_partial (url : Text) (out : Output) (h : fromUrl url = .ok out) :
    ∃ host blanks sign digits junk path : Text,
      url = "ws://".toList ++ host ++ ":".toList ++ (blanks ++ sign ++ digits ++ junk) ++ path ∧
      host ≠ [] ∧ (∀ c ∈ host, c ≠ '/' ∧ c ≠ ' ' ∧ c ≠ ':') ∧
      (∀ c ∈ blanks, isSpace c = true ∧ c ≠ ' ') ∧ (sign = [] ∨ sign = ['+']) ∧
      digits ≠ [] ∧ (∀ c ∈ digits, c.isDigit = true) ∧ (∀ c ∈ junk.head?, c.isDigit = false) ∧
      (∀ c ∈ junk, c ≠ '/') ∧ (∀ c ∈ path.head?, c = '/') ∧
      out.format = "ws" ∧ out.address = "ws://".toList ++ host ∧ out.port = decimal digits ∧
      1 ≤ out.port ∧ out.port ≤ 65535 := by
  unfold fromUrl at h
  cases hm : matchUrl url with
  | none => rw [hm] at h; cases h
  | some t =>
    obtain ⟨protocol, domain, port⟩ := t
    rw [hm] at h
    simp only at h
    by_cases hp : protocol ≠ "ws".toList
    · rw [if_pos hp] at h; cases h
    · rw [if_neg hp] at h
      push Not at hp
      cases ha : atoi port with
      | error e => rw [ha] at h; cases h
      | ok n =>
        rw [ha] at h
        simp only at h
        by_cases hn : n ≤ 0 ∨ n > 65535
        · rw [if_pos hn] at h; cases h
        · rw [if_neg hn] at h
          push Not at hn
          cases h
          obtain ⟨blanks, sign, digits, junk, e, h1, h2, h3, h4, h5, h6, _⟩ := atoi_pos port n ha hn.1
          unfold matchUrl at hm
          by_cases hsp : ' ' ∈ url
          · rw [if_pos hsp] at hm; cases hm
          rw [if_neg hsp] at hm
          simp only at hm
          have hnotwss : ¬ ("wss".toList = protocol) := by rw [hp]; decide +kernel
          by_cases hws : "ws://".toList.isPrefixOf url
          · rw [if_pos hws] at hm
            obtain ⟨rest, hrest⟩ := List.isPrefixOf_iff_prefix.mp hws
            subst hrest
            have hdrop : List.drop 5 ("ws://".toList ++ rest) = rest := by
              have : ("ws://".toList).length = 5 := by decide +kernel
              rw [← this, List.drop_left]
            rw [hdrop] at hm
            split at hm
            · cases hm
            · rename_i hdom
              simp only [Option.some.injEq, Prod.mk.injEq] at hm
              obtain ⟨_, hd, hport⟩ := hm
              have hsplit : rest = rest.takeWhile hostChar ++ rest.dropWhile hostChar :=
                List.takeWhile_append_dropWhile.symm
              have hd' : rest.takeWhile hostChar = domain := hd
              have hdom' : rest.takeWhile hostChar ≠ [] := hdom
              have hport' : List.takeWhile (fun c => !(c == '/' || c == ' '))
                  (if (rest.dropWhile hostChar).head? = some ':' then (rest.dropWhile hostChar).tail
                    else rest.dropWhile hostChar) = port := hport
              have hhead : ∀ c r, rest.dropWhile hostChar = c :: r → hostChar c = false :=
                fun c r h => dropWhile_head h
              generalize rest.dropWhile hostChar = r at *
              -- the separator is a colon
              have hcol : r.head? = some ':' := by
                by_contra hc
                rw [if_neg hc] at hport'
                cases r with
                | nil =>
                  rw [List.takeWhile_nil] at hport'
                  rw [← hport'] at e
                  have := congrArg List.length e
                  simp only [List.length_nil, List.length_append] at this
                  exact h3 (List.length_eq_zero_iff.mp (by omega))
                | cons c r =>
                  have hx := hhead c r rfl
                  have hcc : c ≠ ':' := fun e => hc (by rw [e]; rfl)
                  simp only [hostChar, Bool.not_eq_false', Bool.or_eq_true, beq_iff_eq] at hx
                  have : (fun c => !(c == '/' || c == ' ')) c = false := by
                    rcases hx with (rfl | rfl) | rfl
                    · rfl
                    · rfl
                    · exact absurd rfl hcc
                  simp only [List.takeWhile_cons, this] at hport'
                  rw [if_neg (by simp)] at hport'
                  rw [← hport'] at e
                  have := congrArg List.length e
                  simp only [List.length_nil, List.length_append] at this
                  exact h3 (List.length_eq_zero_iff.mp (by omega))
              cases r with
              | nil => cases hcol
              | cons c r =>
                simp only [List.head?_cons, Option.some.injEq] at hcol
                subst hcol
                simp only [List.head?_cons, if_true, List.tail_cons] at hport'
                refine ⟨domain, blanks, sign, digits, junk,
                  r.dropWhile (fun c => !(c == '/' || c == ' ')), ?_, ?_, ?_, ?_, h2, h3, h4, h5, ?_, ?_,
                  rfl, ?_, ?_, ?_, ?_⟩
                · rw [← e, ← hport', List.append_assoc _ (List.takeWhile _ r),
                    List.takeWhile_append_dropWhile]
                  conv_lhs => rw [hsplit, hd']
                  have : ":".toList = [':'] := by decide +kernel
                  rw [this]
                  simp only [List.append_assoc, List.cons_append, List.nil_append]
                · rw [← hd']; exact hdom'
                · intro c hc
                  rw [← hd'] at hc
                  have := takeWhile_all _ hc
                  simp only [hostChar, Bool.not_eq_true', Bool.or_eq_false_iff, beq_eq_false_iff_ne]
                    at this
                  exact ⟨this.1.1, this.1.2, this.2⟩
                · intro c hc
                  refine ⟨h1 c hc, ?_⟩
                  rintro rfl
                  have : ' ' ∈ port := by rw [e]; simp [hc]
                  rw [← hport'] at this
                  have := takeWhile_all _ this
                  simp at this
                · rintro c hc rfl
                  have : '/' ∈ port := by rw [e]; simp [hc]
                  rw [← hport'] at this
                  have := takeWhile_all _ this
                  simp at this
                · intro c hc
                  cases hr : r.dropWhile (fun c => !(c == '/' || c == ' ')) with
                  | nil => rw [hr] at hc; cases hc
                  | cons d v =>
                    rw [hr] at hc
                    simp only [List.head?_cons, Option.mem_def, Option.some.injEq] at hc
                    subst hc
                    have hx := dropWhile_head hr
                    simp only [Bool.not_eq_false', Bool.or_eq_true, beq_iff_eq] at hx
                    rcases hx with rfl | rfl
                    · rfl
                    · exfalso
                      apply hsp
                      have : ' ' ∈ r := by
                        rw [← List.takeWhile_append_dropWhile (p := fun c => !(c == '/' || c == ' '))
                          (l := r), hr]
                        simp
                      rw [hsplit]
                      simp [this]
                · show protocol ++ "://".toList ++ domain = _
                  rw [hp]
                  have : "ws".toList ++ "://".toList = "ws://".toList := by decide +kernel
                  rw [this]
                · show n.toNat = _
                  rw [h6]; rfl
                · show 1 ≤ n.toNat
                  omega
                · show n.toNat ≤ 65535
                  omega
          · rw [if_neg hws] at hm
            split at hm
            · split at hm
              · cases hm
              · simp only [Option.some.injEq, Prod.mk.injEq] at hm
                exact absurd hm.1 hnotwss
            · cases hm

/-- C63 (completeness): every address 'ws://host:port', possibly followed by '/...', is accepted, and
the host and the port of the output are the ones of the address. -/
theorem fromUrl_complete (host digits path : Text) (hh : host ≠ [])
    (hhost : ∀ c ∈ host, c ≠ '/' ∧ c ≠ ' ' ∧ c ≠ ':')
    (hd : ∀ c ∈ digits, c.isDigit = true)
    (hport : 1 ≤ decimal digits ∧ decimal digits ≤ 65535)
    (hpath : ∀ c ∈ path.head?, c = '/') (hsp : ' ' ∉ path) :
    fromUrl ("ws://".toList ++ host ++ ":".toList ++ digits ++ path) =
      .ok { format := "ws", address := "ws://".toList ++ host, port := decimal digits } := by
  have hcol : ":".toList = [':'] := by decide +kernel
  have hdig (c : Char) (h : c.isDigit = true) : c ≠ '/' ∧ c ≠ ' ' ∧ c ≠ '-' ∧ c ≠ '+' ∧
      isSpace c = false := by
    simp only [Char.isDigit, Bool.and_eq_true, decide_eq_true_eq] at h
    have h48 : 48 ≤ c.toNat := by simpa [UInt32.le_iff_toNat_le] using h.1
    refine ⟨?_, ?_, ?_, ?_, ?_⟩
    · rintro rfl; exact absurd h48 (by decide)
    · rintro rfl; exact absurd h48 (by decide)
    · rintro rfl; exact absurd h48 (by decide)
    · rintro rfl; exact absurd h48 (by decide)
    · simp only [isSpace, Bool.or_eq_false_iff, beq_eq_false_iff_ne]
      refine ⟨⟨⟨⟨⟨?_, ?_⟩, ?_⟩, ?_⟩, ?_⟩, ?_⟩
      · rintro rfl; exact absurd h48 (by decide)
      · rintro rfl; exact absurd h48 (by decide)
      · rintro rfl; exact absurd h48 (by decide)
      · rintro rfl; exact absurd h48 (by decide)
      · omega
      · omega
  have hws : "ws://".toList.isPrefixOf
      ("ws://".toList ++ host ++ ":".toList ++ digits ++ path) = true := by
    rw [List.isPrefixOf_iff_prefix]
    exact ⟨host ++ ":".toList ++ digits ++ path, by simp only [List.append_assoc]⟩
  have hnosp : ' ' ∉ "ws://".toList ++ host ++ ":".toList ++ digits ++ path := by
    simp only [List.mem_append, not_or]
    refine ⟨⟨⟨⟨by decide +kernel, fun h => (hhost _ h).2.1 rfl⟩, by decide +kernel⟩, fun h => ?_⟩, hsp⟩
    exact (hdig _ (hd _ h)).2.1 rfl
  have hdrop : List.drop 5 ("ws://".toList ++ host ++ ":".toList ++ digits ++ path) =
      host ++ (':' :: (digits ++ path)) := by
    have : ("ws://".toList).length = 5 := by decide +kernel
    rw [← this, List.append_assoc, List.append_assoc, List.append_assoc, List.drop_left, hcol]
    simp only [List.cons_append, List.nil_append]
  have hA := takeWhile_append_stop (p := hostChar) (a := host) (b := ':' :: (digits ++ path))
    (fun c hc => by
      obtain ⟨h1, h2, h3⟩ := hhost c hc
      simp [hostChar, h1, h2, h3])
    (fun c hc => by
      simp only [List.head?_cons, Option.mem_def, Option.some.injEq] at hc
      subst hc; rfl)
  have hB := takeWhile_append_stop (p := fun c => !(c == '/' || c == ' ')) (a := digits) (b := path)
    (fun c hc => by
      obtain ⟨h1, h2, _⟩ := hdig c (hd c hc)
      simp [h1, h2])
    (fun c hc => by
      rw [hpath c hc]; rfl)
  have hne : digits ≠ [] := by
    rintro rfl
    simp [decimal] at hport
  have hatoi : atoi digits = .ok (decimal digits : Int) := by
    obtain ⟨c, r, rfl⟩ := List.exists_cons_of_ne_nil hne
    obtain ⟨_, _, h3, h4, h5⟩ := hdig c (hd c List.mem_cons_self)
    have htw : List.takeWhile Char.isDigit (c :: r) = c :: r := by
      have := (takeWhile_append_stop (p := Char.isDigit) (a := c :: r) (b := []) hd
        (by intro c hc; cases hc)).1
      rwa [List.append_nil] at this
    unfold atoi
    have hdw : List.dropWhile isSpace (c :: r) = c :: r := by
      rw [List.dropWhile_cons, if_neg (by rw [h5]; simp)]
    simp only [hdw, List.head?_cons, Option.some.injEq, h3, h4, if_false, htw, toInt]
    rw [if_pos]
    constructor
    · omega
    · have : (decimal (c :: r) : Int) ≤ 65535 := by exact_mod_cast hport.2
      omega
  have hm : matchUrl ("ws://".toList ++ host ++ ":".toList ++ digits ++ path) =
      some ("ws".toList, host, digits) := by
    unfold matchUrl
    rw [if_neg hnosp]
    simp only [hws, if_true, hdrop]
    have h1 : (host ++ (':' :: (digits ++ path))).takeWhile
        (fun c => !(c == '/' || c == ' ' || c == ':')) = host := hA.1
    have h2 : (host ++ (':' :: (digits ++ path))).dropWhile
        (fun c => !(c == '/' || c == ' ' || c == ':')) = ':' :: (digits ++ path) := hA.2
    rw [h1, h2, if_neg hh]
    simp only [List.head?_cons, if_true, List.tail_cons]
    rw [hB.1]
  unfold fromUrl
  rw [hm]
  simp only [ne_eq, not_true_eq_false, if_false, hatoi]
  rw [if_neg (by
    have h1 : (1 : Int) ≤ decimal digits := by exact_mod_cast hport.1
    have h2 : (decimal digits : Int) ≤ 65535 := by exact_mod_cast hport.2
    omega)]
  have : "ws".toList ++ "://".toList = "ws://".toList := by decide +kernel
  rw [this]
  rfl

/-- The port is the number written in decimal: for every port between 1 and 65535 the address `ws://host:port` gives this port. -/
theorem fromUrl_port (host path : Text) (port : Nat) (hh : host ≠ []) (hhost : ∀ c ∈ host, c ≠ '/' ∧ c ≠ ' ' ∧ c ≠ ':')
    (hport : 1 ≤ port ∧ port ≤ 65535) (hpath : ∀ c ∈ path.head?, c = '/') (hsp : ' ' ∉ path) :
    fromUrl ("ws://".toList ++ host ++ ":".toList ++ (toString port).toList ++ path) =
      .ok { format := "ws", address := "ws://".toList ++ host, port := port } := by
  have hd : decimal (toString port).toList = port := by
    have h : (toString port).toList = Nat.toDigits 10 port := Nat.toList_repr
    rw [h]
    exact Nat.ofDigitChars_ten_toDigits
  have := fromUrl_complete host (toString port).toList path hh hhost
    (fun c hc => by
      have h : (toString port).toList = Nat.toDigits 10 port := Nat.toList_repr
      rw [h] at hc
      exact Nat.isDigit_of_mem_toDigits (by decide) (by decide) hc) (by rw [hd]; exact hport) hpath hsp
  rw [hd] at this
  exact this

example : fromUrl "ws://130.66.124.200:8080/sim".toList =
    .ok { format := "ws", address := "ws://130.66.124.200".toList, port := 8080 } := by
  decide +kernel

/-- C63: ports outside of 1..65535 (given by less than ten digits), a missing port and wss are refused -/
example : fromUrl "ws://localhost:65536".toList = .error invalidInput ∧
    fromUrl "ws://localhost:0".toList = .error invalidInput ∧
    fromUrl "ws://localhost".toList = .error invalidInput ∧
    fromUrl "wss://localhost:80".toList = .error invalidInput ∧
    fromUrl "ws://:80".toList = .error invalidInput := by decide +kernel

/-- C63, refutation: what follows the digits of the port is ignored -/
theorem ws_port_junk : fromUrl "ws://localhost:80abc".toList =
    .ok { format := "ws", address := "ws://localhost".toList, port := 80 } := by decide +kernel

end Xdyn.Config
