import Verif.Lemmas.Base64

/-! Properties C05-C06: the base64 encoding. -/

namespace Xdyn.Base64

/-- **C05** Every byte sequence is encoded without out-of-bounds access and decoding its
encoding gives back the same bytes. -/
theorem base64_round_trip (bytes : List Byte) :
    ∃ text, encode bytes = some text ∧ decode text = bytes := by
  refine ⟨groups bytes, encode_eq bytes, ?_⟩
  have := decode_groups bytes []
  simpa [decode, finish] using this

/-- Specification of the base64 alphabet `A-Z a-z 0-9 + /`, by character codes. -/
def InAlphabet (c : Byte) : Prop :=
  (65 ≤ c.val ∧ c.val ≤ 90) ∨ (97 ≤ c.val ∧ c.val ≤ 122) ∨ (48 ≤ c.val ∧ c.val ≤ 57) ∨ c.val = 43 ∨ c.val = 47

/-- **C06** An encoded text has `4 * ⌈n / 3⌉` characters: alphabet characters followed by
exactly `(3 - n mod 3) mod 3` characters `'='` (code 61). -/
theorem base64_shape (bytes text : List Byte) (h : encode bytes = some text) :
    text.length = 4 * ((bytes.length + 2) / 3) ∧
    ∃ body, text = body ++ List.replicate ((3 - bytes.length % 3) % 3) 61 ∧
      ∀ c ∈ body, InAlphabet c := by
  rw [encode_eq] at h
  cases h
  obtain ⟨body, hb, hl, hc⟩ := groups_shape bytes
  refine ⟨hl, body, hb, fun c hcm => ?_⟩
  have := hc c hcm
  simp only [isBase64, Bool.or_eq_true, Bool.and_eq_true, decide_eq_true_eq, beq_iff_eq] at this
  unfold InAlphabet
  tauto

/-- `"hello"` is encoded as `"aGVsbG8="`: the hypothesis of C06 is met. -/
example : encode [104, 101, 108, 108, 111] = some [97, 71, 86, 115, 98, 71, 56, 61] := by decide +kernel

end Xdyn.Base64
