import Verif.Lemmas.Base91

/-! Properties C01-C04: the base91 encoding. -/

namespace Xdyn.Base91

/-- Specification of the base91 alphabet: the printable ASCII characters except the single
quote (39), the dash (45) and the backslash (92). -/
def InAlphabet (c : Byte) : Prop := 33 ≤ c.val ∧ c.val ≤ 126 ∧ c.val ≠ 39 ∧ c.val ≠ 45 ∧ c.val ≠ 92

instance (c : Byte) : Decidable (InAlphabet c) := by unfold InAlphabet; infer_instance

theorem mem_enctab_iff : ∀ c : Byte, c ∈ enctab ↔ InAlphabet c := by decide +kernel

theorem lookup_eq_91_iff : ∀ c : Byte, lookup c = 91 ↔ ¬ InAlphabet c := by decide +kernel

/-- **C01** Every byte sequence is encoded without any out-of-bounds access and decoding its
encoding gives back the same bytes. -/
theorem base91_round_trip (bytes : List Byte) :
    ∃ text, encode bytes = some text ∧ decode text = bytes := by
  obtain ⟨t, ht, -, -⟩ := mapM_some _ (encIndices_lt bytes)
  refine ⟨t, ht, ?_⟩
  rw [decode_eq_run, mapM_lookup _ _ (encIndices_lt bytes) ht, decFlush_run]

/-- Encoding is injective: two different byte sequences never share a text. -/
theorem base91_encode_injective (a b : List Byte) (h : encode a = encode b) : a = b := by
  obtain ⟨t, ht, ha⟩ := base91_round_trip a
  obtain ⟨u, hu, hb⟩ := base91_round_trip b
  rw [ht, hu] at h
  cases h
  rw [← ha, hb]

/-- **C02** Every character of an encoded text is printable ASCII and is neither a blank, a
single quote, a dash nor a backslash. -/
theorem base91_alphabet (bytes text : List Byte) (h : encode bytes = some text) :
    ∀ c ∈ text, 33 ≤ c.val ∧ c.val ≤ 126 ∧ c.val ≠ 39 ∧ c.val ≠ 45 ∧ c.val ≠ 92 := by
  obtain ⟨t, ht, -, hmem⟩ := mapM_some _ (encIndices_lt bytes)
  have : encode bytes = some t := ht
  rw [h] at this
  cases this
  intro c hc
  exact (mem_enctab_iff c).1 (hmem c hc)

/-- **C03** Two texts that only differ by characters outside the alphabet are decoded to
the same bytes. -/
theorem base91_skips_foreign (t u : List Byte)
    (h : t.filter (fun c => decide (InAlphabet c)) = u.filter (fun c => decide (InAlphabet c))) :
    decode t = decode u := by
  have key : ∀ t : List Byte,
      (t.map lookup).filter (· ≠ 91) = (t.filter (fun c => decide (InAlphabet c))).map lookup := by
    intro t
    rw [List.filter_map]
    congr 1
    apply List.filter_congr
    intro c _
    have := lookup_eq_91_iff c
    by_cases hc : InAlphabet c <;> simp_all
  rw [decode_eq_run, decode_eq_run, ← run_filter (t.map lookup), ← run_filter (u.map lookup),
    key, key, h]

/-- **C04** Size of an encoded text: at most `2 * ⌈8 n / 13⌉` and at least `⌈16 n / 14⌉`
characters for `n` bytes. -/
theorem base91_size (bytes text : List Byte) (h : encode bytes = some text) :
    text.length ≤ 2 * ((8 * bytes.length + 12) / 13) ∧
    (16 * bytes.length + 13) / 14 ≤ text.length := by
  obtain ⟨t, ht, hlen, -⟩ := mapM_some _ (encIndices_lt bytes)
  have : encode bytes = some t := ht
  rw [h] at this
  cases this
  have := encIndices_length bytes
  rw [hlen]
  omega

/-- A non-trivial encoding: the hypotheses of C02 and C04 are met. -/
example : encode [104, 101, 108, 108, 111] = some [84, 80, 119, 74, 104, 62, 65] := by decide +kernel

/-- Two different texts that C03 identifies: `"TP wJ\nh>A"` and `"TPwJh>A"`. -/
example : ([84, 80, 32, 119, 74, 10, 104, 62, 65] : List Byte).filter (fun c => decide (InAlphabet c))
    = ([84, 80, 119, 74, 104, 62, 65] : List Byte).filter (fun c => decide (InAlphabet c)) := by
  decide +kernel

end Xdyn.Base91
