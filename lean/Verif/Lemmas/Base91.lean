import Verif.Model.Base91
import Mathlib.Tactic.Ring
import Mathlib.Tactic.Linarith
import Mathlib.Data.Nat.Bitwise

namespace Xdyn.Base91

/-- little-endian value of a byte list -/
def num : List Byte → Nat
  | [] => 0
  | b :: bs => b.val + 256 * num bs

theorem num_append (l m : List Byte) : num (l ++ m) = num l + 256 ^ l.length * num m := by
  induction l with
  | nil => simp [num]
  | cons a l ih => simp [num, ih, pow_succ]; ring

theorem num_inj : ∀ {l m : List Byte}, l.length = m.length → num l = num m → l = m
  | [], [], _, _ => rfl
  | [], _ :: _, h, _ => by simp at h
  | _ :: _, [], h, _ => by simp at h
  | a :: l, b :: m, h, e => by
    simp [num] at e h
    have ha := a.isLt; have hb := b.isLt
    have h1 : a.val = b.val := by omega
    have h2 : num l = num m := by omega
    rw [Fin.ext h1, num_inj h h2]

theorem or_shift {q n b : Nat} (h : q < 2 ^ n) : q ||| (b <<< n) = q + 2 ^ n * b := by
  have := Nat.shiftLeft_add_eq_or_of_lt h b
  rw [Nat.or_comm, ← this, Nat.shiftLeft_eq]; ring

theorem and_8191 (x : Nat) : x &&& 8191 = x % 8192 := Nat.and_two_pow_sub_one_eq_mod x 13
theorem and_16383 (x : Nat) : x &&& 16383 = x % 16384 := Nat.and_two_pow_sub_one_eq_mod x 14
theorem shr (x n : Nat) : x >>> n = x / 2 ^ n := Nat.shiftRight_eq_div_pow x n

/-- specification of the draining loop -/
theorem drain_spec (queue nbits : Nat) (out : List Byte) (hn : 8 ≤ nbits) (hq : queue < 2 ^ nbits) :
    let r := drain queue nbits out
    r.2.1 ≤ 7 ∧ r.1 < 2 ^ r.2.1 ∧ 8 * r.2.2.length + r.2.1 = 8 * out.length + nbits ∧
    num r.2.2 + 256 ^ r.2.2.length * r.1 = num out + 256 ^ out.length * queue := by
  induction nbits using Nat.strong_induction_on generalizing queue out with
  | _ nbits ih =>
    rw [drain]
    have hq8 : queue >>> 8 < 2 ^ (nbits - 8) := by
      rw [shr]
      have : 2 ^ nbits = 2 ^ 8 * 2 ^ (nbits - 8) := by rw [← pow_add]; congr 1; omega
      exact Nat.div_lt_of_lt_mul (by omega)
    have hnum : num (out ++ [lowByte queue]) + 256 ^ (out ++ [lowByte queue]).length * (queue >>> 8)
        = num out + 256 ^ out.length * queue := by
      rw [num_append, shr]
      simp only [num, lowByte, List.length_append, List.length_singleton, pow_succ]
      have : queue = queue % 256 + 256 * (queue / 256) := by omega
      conv_rhs => rw [this]
      norm_num
      ring
    by_cases h : nbits - 8 > 7
    · simp only [h, if_true]
      have := ih (nbits - 8) (by omega) (queue >>> 8) (out ++ [lowByte queue]) (by omega) hq8
      obtain ⟨h1, h2, h3, h4⟩ := this
      refine ⟨h1, h2, ?_, ?_⟩
      · rw [h3]; simp; omega
      · rw [h4, hnum]
    · simp only [h, if_false]
      refine ⟨by omega, hq8, ?_, hnum⟩
      simp; omega

/-- run the decoder on indices -/
def run (s : Dec) (l : List Nat) : Dec := l.foldl decStep s

/-- Decoding a pair of digits of a value `v`. -/
theorem run_pair (s : Dec) (v w : Nat) (hv : s.val = none) (hs : s.nbits ≤ 7) (hq : s.queue < 2 ^ s.nbits)
    (hw : w = if v % 8192 > 88 then 13 else 14) (hvw : v < 2 ^ w) (hlt : v < 91 * 91) :
    let r := run s [v % 91, v / 91]
    r.val = none ∧ r.nbits ≤ 7 ∧ r.queue < 2 ^ r.nbits ∧
    8 * r.out.length + r.nbits = 8 * s.out.length + s.nbits + w ∧
    num r.out + 256 ^ r.out.length * r.queue
      = num s.out + 256 ^ s.out.length * (s.queue + 2 ^ s.nbits * v) := by
  have hv' : v % 91 + v / 91 * 91 = v := by omega
  have e1 : v % 91 ≠ 91 := by omega
  have e2 : v / 91 ≠ 91 := by omega
  have hw13 : 13 ≤ w := by split at hw <;> omega
  simp only [run, List.foldl_cons, List.foldl_nil, decStep, e1, e2, if_false, hv, hv', and_8191,
    ← hw, or_shift hq]
  have hb : s.queue + 2 ^ s.nbits * v < 2 ^ (s.nbits + w) := by
    rw [pow_add]
    have : 2 ^ s.nbits * (v + 1) ≤ 2 ^ s.nbits * 2 ^ w := Nat.mul_le_mul_left _ hvw
    nlinarith
  have := drain_spec (s.queue + 2 ^ s.nbits * v) (s.nbits + w) s.out (by omega) hb
  obtain ⟨h1, h2, h3, h4⟩ := this
  refine ⟨trivial, h1, h2, ?_, h4⟩
  rw [h3]; omega

theorem run_append (s : Dec) (l m : List Nat) : run s (l ++ m) = run (run s l) m := by
  simp [run, List.foldl_append]

def dec0 : Dec := { queue := 0, nbits := 0, val := none, out := [] }
def enc0 : Enc := { queue := 0, nbits := 0, out := [] }

/-- Simulation relation between the encoder having read `p` and the decoder having read what
the encoder wrote. -/
structure Inv (p : List Byte) (e : Enc) : Prop where
  enbits : e.nbits ≤ 13
  equeue : e.queue < 2 ^ e.nbits
  dval : (run dec0 e.out).val = none
  dnbits : (run dec0 e.out).nbits ≤ 7
  dqueue : (run dec0 e.out).queue < 2 ^ (run dec0 e.out).nbits
  bits : 8 * (run dec0 e.out).out.length + (run dec0 e.out).nbits + e.nbits = 8 * p.length
  nums : num (run dec0 e.out).out + 256 ^ (run dec0 e.out).out.length *
      ((run dec0 e.out).queue + 2 ^ (run dec0 e.out).nbits * e.queue) = num p
  dig : ∀ i ∈ e.out, i < 91
  /-- number of characters written so far against the number of bits consumed -/
  groups : 13 * e.out.length ≤ 2 * (8 * p.length - e.nbits) ∧
      2 * (8 * p.length - e.nbits) ≤ 14 * e.out.length ∧ e.out.length % 2 = 0

theorem inv0 : Inv [] enc0 := by
  constructor <;> simp [enc0, run, dec0, num]

/-- taking one group of `w` bits out of the queue preserves the relation -/
theorem inv_take {p : List Byte} {q n : Nat} {out : List Nat} {v w q' : Nat}
    (hq : q < 2 ^ n) (hwn : w ≤ n) (hn : n ≤ 21)
    (hw : w = if v % 8192 > 88 then 13 else 14) (hvw : v < 2 ^ w) (hlt : v < 91 * 91)
    (hqv : q = v + 2 ^ w * q')
    (dval : (run dec0 out).val = none)
    (dnbits : (run dec0 out).nbits ≤ 7)
    (dqueue : (run dec0 out).queue < 2 ^ (run dec0 out).nbits)
    (bits : 8 * (run dec0 out).out.length + (run dec0 out).nbits + n = 8 * p.length)
    (nums : num (run dec0 out).out + 256 ^ (run dec0 out).out.length *
      ((run dec0 out).queue + 2 ^ (run dec0 out).nbits * q) = num p)
    (dig : ∀ i ∈ out, i < 91)
    (groups : 13 * out.length ≤ 2 * (8 * p.length - n) ∧
      2 * (8 * p.length - n) ≤ 14 * out.length ∧ out.length % 2 = 0) :
    Inv p { queue := q', nbits := n - w, out := out ++ [v % 91, v / 91] } := by
  have hw13 : 13 ≤ w := by split at hw <;> omega
  have hw14 : w ≤ 14 := by split at hw <;> omega
  have key := run_pair (run dec0 out) v w dval dnbits dqueue hw hvw hlt
  rw [← run_append] at key
  obtain ⟨k1, k2, k3, k4, k5⟩ := key
  generalize hr : run dec0 (out ++ [v % 91, v / 91]) = r at *
  generalize hs : run dec0 out = s at *
  constructor
  · simp; omega
  · show q' < 2 ^ (n - w)
    have : 2 ^ n = 2 ^ w * 2 ^ (n - w) := by rw [← pow_add]; congr 1; omega
    rw [this, hqv] at hq
    exact Nat.lt_of_mul_lt_mul_left (show 2 ^ w * q' < 2 ^ w * 2 ^ (n - w) by omega)
  · simpa [hr] using k1
  · simpa [hr] using k2
  · simpa [hr] using k3
  · simp only [hr]; omega
  · simp only [hr]
    rw [← nums, hqv, Nat.mul_add, ← Nat.add_assoc, k5]
    have hpow : 256 ^ r.out.length * 2 ^ r.nbits = 256 ^ s.out.length * (2 ^ s.nbits * 2 ^ w) := by
      have h256 : (256 : Nat) = 2 ^ 8 := by norm_num
      rw [h256, ← pow_mul, ← pow_mul, ← pow_add, ← pow_add, ← pow_add]
      congr 1; omega
    calc num s.out + 256 ^ s.out.length * (s.queue + 2 ^ s.nbits * v) + 256 ^ r.out.length * (2 ^ r.nbits * q')
        = num s.out + 256 ^ s.out.length * (s.queue + 2 ^ s.nbits * v) + (256 ^ r.out.length * 2 ^ r.nbits) * q' := by ring
      _ = _ := by rw [hpow]; ring
  · intro i hi
    simp at hi
    rcases hi with h | h | h
    · exact dig i h
    · omega
    · omega
  · simp; omega

theorem inv_step {p : List Byte} {e : Enc} (b : Byte) (h : Inv p e) : Inv (p ++ [b]) (encStep e b) := by
  obtain ⟨h1, h2, h3, h4, h5, h6, h7, h8, h9⟩ := h
  have hb := b.isLt
  have hq : e.queue ||| (b.val <<< e.nbits) = e.queue + 2 ^ e.nbits * b.val := or_shift h2
  have hqlt : e.queue + 2 ^ e.nbits * b.val < 2 ^ (e.nbits + 8) := by
    rw [pow_add]
    have : 2 ^ e.nbits * (b.val + 1) ≤ 2 ^ e.nbits * 2 ^ 8 := Nat.mul_le_mul_left _ (by omega)
    nlinarith
  have hnum : num (run dec0 e.out).out + 256 ^ (run dec0 e.out).out.length *
      ((run dec0 e.out).queue + 2 ^ (run dec0 e.out).nbits * (e.queue + 2 ^ e.nbits * b.val)) = num (p ++ [b]) := by
    rw [num_append, ← h7]
    have hpow : 256 ^ p.length = 256 ^ (run dec0 e.out).out.length * (2 ^ (run dec0 e.out).nbits * 2 ^ e.nbits) := by
      have h256 : (256 : Nat) = 2 ^ 8 := by norm_num
      rw [h256, ← pow_mul, ← pow_mul, ← pow_add, ← pow_add]
      congr 1; omega
    rw [hpow]
    simp only [num, Nat.mul_zero, Nat.add_zero]
    ring
  have hlen : (p ++ [b]).length = p.length + 1 := by simp
  simp only [encStep, hq]
  generalize hQ : e.queue + 2 ^ e.nbits * b.val = Q at *
  by_cases c : e.nbits + 8 > 13
  · simp only [c, if_true]
    by_cases c2 : Q &&& 8191 > 88
    · simp only [c2, if_true]
      rw [and_8191] at c2
      refine inv_take (p := p ++ [b]) (q := Q) (n := e.nbits + 8) (w := 13) (v := Q &&& 8191) hqlt (by omega) (by omega)
        ?_ ?_ ?_ ?_ h3 h4 h5 (by rw [hlen]; omega) hnum h8 (by rw [hlen]; omega)
      · rw [and_8191]; rw [if_pos (by omega)]
      · rw [and_8191]; norm_num; omega
      · rw [and_8191]; omega
      · rw [and_8191, shr]; norm_num; omega
    · simp only [c2, if_false]
      rw [and_8191] at c2
      refine inv_take (p := p ++ [b]) (q := Q) (n := e.nbits + 8) (w := 14) (v := Q &&& 16383) hqlt (by omega) (by omega)
        ?_ ?_ ?_ ?_ h3 h4 h5 (by rw [hlen]; omega) hnum h8 (by rw [hlen]; omega)
      · rw [and_16383]; rw [if_neg (by omega)]
      · rw [and_16383]; norm_num; omega
      · rw [and_16383]; omega
      · rw [and_16383, shr]; norm_num; omega
  · simp only [c, if_false]
    exact ⟨by simp; omega, hqlt, h3, h4, h5, by simp; omega, hnum, h8, by simp; omega⟩

theorem inv_all (bytes : List Byte) : Inv bytes (bytes.foldl encStep enc0) := by
  suffices h : ∀ (rest p : List Byte) (e : Enc), Inv p e → Inv (p ++ rest) (rest.foldl encStep e) by
    simpa using h bytes [] enc0 inv0
  intro rest
  induction rest with
  | nil => intro p e h; simpa using h
  | cons b rest ih =>
    intro p e h
    have := ih (p ++ [b]) (encStep e b) (inv_step b h)
    simpa using this

theorem pow_le_of {a b : Nat} (h : a ≤ b) : 2 ^ a ≤ 2 ^ b := Nat.pow_le_pow_right (by norm_num) h

theorem encIndices_lt (bytes : List Byte) : ∀ i ∈ encIndices bytes, i < 91 := by
  have h := inv_all bytes
  unfold encIndices
  change ∀ i ∈ encFlush (bytes.foldl encStep enc0), i < 91
  generalize bytes.foldl encStep enc0 = e at *
  intro i hi
  have hq : e.queue < 8192 := lt_of_lt_of_le h.equeue (by have := pow_le_of h.enbits; norm_num at this; exact this)
  unfold encFlush at hi
  split_ifs at hi
  · simp at hi; rcases hi with hi | hi | hi
    · exact h.dig i hi
    · omega
    · omega
  · simp at hi; rcases hi with hi | hi
    · exact h.dig i hi
    · omega
  · exact h.dig i hi

theorem decFlush_run (bytes : List Byte) : decFlush (run dec0 (encIndices bytes)) = bytes := by
  have h := inv_all bytes
  unfold encIndices
  change decFlush (run dec0 (encFlush (bytes.foldl encStep enc0))) = bytes
  generalize bytes.foldl encStep enc0 = e at *
  obtain ⟨h1, h2, h3, h4, h5, h6, h7, h8, h9⟩ := h
  have hq : e.queue < 8192 := lt_of_lt_of_le h2 (by have := pow_le_of h1; norm_num at this; exact this)
  unfold encFlush
  split_ifs with c1 c2
  · -- two characters
    rw [run_append]
    generalize hs : run dec0 e.out = s at *
    have hw : ∃ w, w = if e.queue % 8192 > 88 then 13 else 14 := ⟨_, rfl⟩
    obtain ⟨w, hw⟩ := hw
    have hw13 : 13 ≤ w := by split at hw <;> omega
    have hw14 : w ≤ 14 := by split at hw <;> omega
    have hqw : e.queue < 2 ^ w := lt_of_lt_of_le (show e.queue < 2 ^ 13 by norm_num; omega) (pow_le_of hw13)
    have key := run_pair s e.queue w h3 h4 h5 hw hqw (by omega)
    generalize run s [e.queue % 91, e.queue / 91] = r at *
    obtain ⟨k1, k2, k3, k4, k5⟩ := key
    have hlt : e.nbits < 7 → e.queue ≤ 90 := by
      intro hh
      have : 2 ^ e.nbits ≤ 2 ^ 6 := pow_le_of (by omega)
      norm_num at this; omega
    have hw7 : e.nbits ≤ 7 → w = 13 := by
      intro hh
      rcases c2 with c2 | c2
      · omega
      · rw [hw, if_pos (by omega)]
    have hlen : r.out.length = bytes.length := by
      rcases Nat.lt_or_ge e.nbits 7 with h' | h'
      · have := hlt h'; omega
      · rcases Nat.lt_or_ge e.nbits 8 with h'' | h''
        · have := hw7 (by omega); omega
        · omega
    have : decFlush r = r.out := by simp [decFlush, k1]
    rw [this]
    apply num_inj hlen
    rw [← h7, ← k5]
    -- the queue left in the decoder must be zero: num bytes < 256^length
    have bound : ∀ l : List Byte, num l < 256 ^ l.length := by
      intro l; induction l with
      | nil => simp [num]
      | cons a l ih =>
        have := a.isLt
        simp only [num, List.length_cons, pow_succ]; omega
    have e1 : num r.out + 256 ^ r.out.length * r.queue = num bytes := by rw [k5, h7]
    have b1 := bound bytes
    rw [← hlen] at b1
    have : r.queue = 0 := by
      by_contra hne
      have : 256 ^ r.out.length * 1 ≤ 256 ^ r.out.length * r.queue := Nat.mul_le_mul_left _ (by omega)
      omega
    simp [this]
  · -- one character
    rw [run_append]
    generalize hs : run dec0 e.out = s at *
    have e1 : e.queue % 91 = e.queue := by omega
    have e2 : e.queue ≠ 91 := by omega
    have hr : run s [e.queue % 91] = { s with val := some e.queue } := by
      simp [run, decStep, e1, e2, h3]
    rw [hr]
    have hn : s.nbits = 8 - e.nbits := by omega
    have hv : s.queue + 2 ^ s.nbits * e.queue < 256 := by
      have : 2 ^ s.nbits * (e.queue + 1) ≤ 2 ^ s.nbits * 2 ^ e.nbits := Nat.mul_le_mul_left _ h2
      rw [← pow_add] at this
      have h8' : s.nbits + e.nbits = 8 := by omega
      rw [h8'] at this
      norm_num at this
      nlinarith
    have : decFlush { s with val := some e.queue } = s.out ++ [lowByte (s.queue + 2 ^ s.nbits * e.queue)] := by
      simp [decFlush, or_shift h5]
    rw [this]
    apply num_inj
    · simp; omega
    · rw [num_append, ← h7]
      simp only [num, lowByte, Nat.mod_eq_of_lt hv, Nat.mul_zero, Nat.add_zero]
  · -- nothing left
    have hn0 : e.nbits = 0 := by omega
    have hq0 : e.queue = 0 := by rw [hn0] at h2; simpa using h2
    generalize hs : run dec0 e.out = s at *
    have hsn : s.nbits = 0 := by omega
    have hsq : s.queue = 0 := by rw [hsn] at h5; simpa using h5
    have : decFlush s = s.out := by simp [decFlush, h3]
    rw [this]
    apply num_inj
    · omega
    · rw [← h7, hq0, hsq]; simp

theorem lookup_enctab : ∀ i : Fin 91, (enctab[i.val]?).map lookup = some i.val := by decide

theorem mapM_lookup : ∀ (l : List Nat) (t : List Byte), (∀ i ∈ l, i < 91) →
    l.mapM (fun i => enctab[i]?) = some t → t.map lookup = l
  | [], t, _, h => by simp at h; subst h; rfl
  | a :: l, t, hl, h => by
    have ha : a < 91 := hl a (by simp)
    have := lookup_enctab ⟨a, ha⟩
    simp only [List.mapM_cons] at h
    cases hc : enctab[a]? with
    | none => simp [hc] at this
    | some c =>
      cases hm : l.mapM (fun i => enctab[i]?) with
      | none => simp [hc, hm] at h
      | some u =>
        simp [hc] at this
        simp [hc, hm] at h
        subst h
        simp [this, mapM_lookup l u (fun i hi => hl i (by simp [hi])) hm]

theorem mapM_some : ∀ (l : List Nat), (∀ i ∈ l, i < 91) → ∃ t, l.mapM (fun i => enctab[i]?) = some t ∧ t.length = l.length ∧ ∀ c ∈ t, c ∈ enctab
  | [], _ => ⟨[], by simp⟩
  | a :: l, hl => by
    have ha : a < 91 := hl a (by simp)
    obtain ⟨u, hu, hlen, hmem⟩ := mapM_some l (fun i hi => hl i (by simp [hi]))
    have hlt : a < enctab.length := by simpa [enctab] using ha
    refine ⟨enctab[a] :: u, ?_, ?_, ?_⟩
    · simp [List.mapM_cons, hu, List.getElem?_eq_getElem hlt]
    · simp [hlen]
    · intro c hc
      simp at hc
      rcases hc with rfl | hc
      · exact List.getElem_mem _
      · exact hmem c hc

theorem decode_eq_run (t : List Byte) : decode t = decFlush (run dec0 (t.map lookup)) := by
  simp [decode, run, dec0, List.foldl_map]

theorem run_filter (l : List Nat) : ∀ s, run s (l.filter (· ≠ 91)) = run s l := by
  induction l with
  | nil => intro s; rfl
  | cons a l ih =>
    intro s
    by_cases h : a = 91
    · subst h
      have : run s (91 :: l) = run s l := by simp [run, decStep]
      rw [this, ← ih s]; simp
    · simp only [List.filter_cons, h, ne_eq, not_false_eq_true, decide_true, if_true]
      show run (decStep s a) _ = run (decStep s a) _
      exact ih _

theorem encIndices_length (bytes : List Byte) :
    13 * (encIndices bytes).length < 16 * bytes.length + 26 ∧
    (encIndices bytes).length ≤ 2 * ((8 * bytes.length + 12) / 13) ∧
    8 * bytes.length ≤ 7 * (encIndices bytes).length := by
  have h := inv_all bytes
  unfold encIndices
  change 13 * (encFlush (bytes.foldl encStep enc0)).length < _ ∧ (encFlush (bytes.foldl encStep enc0)).length ≤ _ ∧ _ ≤ 7 * (encFlush (bytes.foldl encStep enc0)).length
  generalize bytes.foldl encStep enc0 = e at *
  obtain ⟨h1, h2, h3, h4, h5, h6, h7, h8, h9, h10, h11⟩ := h
  have hle : e.nbits ≤ 8 * bytes.length := by omega
  unfold encFlush
  split_ifs with c1 c2
  · simp; omega
  · simp; omega
  · omega

end Xdyn.Base91
