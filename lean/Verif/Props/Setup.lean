import Verif.Model.Setup
import Verif.Spec.State
import Verif.Props.EulerRates
import Verif.Props.MeshFrame
import Verif.Lemmas.Waves

/-! Properties C138 (rotation convention), C139 (initial states), C140 (angles to quaternion). -/

namespace Xdyn.Setup

open Xdyn.Body Xdyn.Spec Xdyn.Hull

/-- Four times the products of the components of the quaternion of a rotation, read in its matrix
(w, x, y, z). -/
def prodMat (R : Mat3 ℝ) : Matrix (Fin 4) (Fin 4) ℝ :=
  !![1 + R 0 0 + R 1 1 + R 2 2, R 2 1 - R 1 2, R 0 2 - R 2 0, R 1 0 - R 0 1;
     R 2 1 - R 1 2, 1 + R 0 0 - R 1 1 - R 2 2, R 0 1 + R 1 0, R 0 2 + R 2 0;
     R 0 2 - R 2 0, R 0 1 + R 1 0, 1 - R 0 0 + R 1 1 - R 2 2, R 1 2 + R 2 1;
     R 1 0 - R 0 1, R 0 2 + R 2 0, R 1 2 + R 2 1, 1 - R 0 0 - R 1 1 + R 2 2]

def comp (q : Quat ℝ) : Fin 4 → ℝ := ![q.w, q.x, q.y, q.z]

theorem prodMat_rank (R : Mat3 ℝ) (hR : IsRotation R) (c i j : Fin 4) :
    prodMat R c i * prodMat R c j = prodMat R c c * prodMat R i j := by
  obtain ⟨c00, c01, c02, c10, c11, c12, c20, c21, c22⟩ := cofactors R hR
  have a : ∀ i j, (R.transpose * R) i j = (1 : Mat3 ℝ) i j := fun i j => by rw [hR.orth]
  have b : ∀ i j, (R * R.transpose) i j = (1 : Mat3 ℝ) i j := fun i j => by rw [hR.orth']
  have a00 := a 0 0; have a01 := a 0 1; have a02 := a 0 2; have a11 := a 1 1; have a12 := a 1 2; have a22 := a 2 2
  have b00 := b 0 0; have b01 := b 0 1; have b02 := b 0 2; have b11 := b 1 1; have b12 := b 1 2; have b22 := b 2 2
  simp [Matrix.mul_apply, Fin.sum_univ_three] at a00 a01 a02 a11 a12 a22 b00 b01 b02 b11 b12 b22
  clear a b hR
  unfold prodMat
  generalize R 0 0 = r00 at *
  generalize R 0 1 = r01 at *
  generalize R 0 2 = r02 at *
  generalize R 1 0 = r10 at *
  generalize R 1 1 = r11 at *
  generalize R 1 2 = r12 at *
  generalize R 2 0 = r20 at *
  generalize R 2 1 = r21 at *
  generalize R 2 2 = r22 at *
  fin_cases c <;> fin_cases i <;> fin_cases j <;> simp <;> grind

theorem half_sqrt {a : ℝ} (ha : 0 < a) : (0.5 : ℝ) * √a = a * (0.5 / √a) := by
  have h : √a ≠ 0 := (Real.sqrt_pos.mpr ha).ne'
  field_simp
  exact Real.sq_sqrt ha.le

/-- The components computed by Eigen are a column of `prodMat`, scaled. -/
theorem ofMatrix_comp (R : Mat3 ℝ) :
    ∃ c, 0 < prodMat R c c ∧ ∀ i, comp (ofMatrix R) i = prodMat R c i * (0.5 / √(prodMat R c c)) := by
  unfold ofMatrix
  by_cases h : 0 < R 0 0 + R 1 1 + R 2 2
  · rw [if_pos h]
    have hp : 0 < prodMat R 0 0 := by simp [prodMat]; linarith
    refine ⟨0, hp, ?_⟩
    have e : R 0 0 + R 1 1 + R 2 2 + 1 = prodMat R 0 0 := by simp [prodMat]; ring
    intro i
    fin_cases i
    · simp only [ofMatrixTrace, comp, e]; exact half_sqrt hp
    all_goals simp only [ofMatrixTrace, comp, e]; simp [prodMat]
  · rw [if_neg h]
    have hX : R 1 1 ≤ R 0 0 → R 2 2 ≤ R 0 0 →
        ∃ c, 0 < prodMat R c c ∧ ∀ i, comp (ofMatrixX R) i = prodMat R c i * (0.5 / √(prodMat R c c)) := by
      intro h1 h2
      have hp : 0 < prodMat R 1 1 := by simp [prodMat]; linarith
      refine ⟨1, hp, ?_⟩
      have e : R 0 0 - R 1 1 - R 2 2 + 1 = prodMat R 1 1 := by simp [prodMat]; ring
      intro i
      fin_cases i
      · simp only [ofMatrixX, comp, e]; simp [prodMat]
      · simp only [ofMatrixX, comp, e]; exact half_sqrt hp
      all_goals simp only [ofMatrixX, comp, e]; simp [prodMat]; left; ring
    have hY : R 0 0 ≤ R 1 1 → R 2 2 ≤ R 1 1 →
        ∃ c, 0 < prodMat R c c ∧ ∀ i, comp (ofMatrixY R) i = prodMat R c i * (0.5 / √(prodMat R c c)) := by
      intro h1 h2
      have hp : 0 < prodMat R 2 2 := by simp [prodMat]; linarith
      refine ⟨2, hp, ?_⟩
      have e : R 1 1 - R 2 2 - R 0 0 + 1 = prodMat R 2 2 := by simp [prodMat]; ring
      intro i
      fin_cases i
      · simp only [ofMatrixY, comp, e]; simp [prodMat]
      · simp only [ofMatrixY, comp, e]; simp [prodMat]
      · simp only [ofMatrixY, comp, e]; exact half_sqrt hp
      · simp only [ofMatrixY, comp, e]; simp [prodMat]; left; ring
    have hZ : R 0 0 ≤ R 2 2 → R 1 1 ≤ R 2 2 →
        ∃ c, 0 < prodMat R c c ∧ ∀ i, comp (ofMatrixZ R) i = prodMat R c i * (0.5 / √(prodMat R c c)) := by
      intro h1 h2
      have hp : 0 < prodMat R 3 3 := by simp [prodMat]; linarith
      refine ⟨3, hp, ?_⟩
      have e : R 2 2 - R 0 0 - R 1 1 + 1 = prodMat R 3 3 := by simp [prodMat]; ring
      intro i
      fin_cases i
      · simp only [ofMatrixZ, comp, e]; simp [prodMat]
      · simp only [ofMatrixZ, comp, e]; simp [prodMat]
      · simp only [ofMatrixZ, comp, e]; simp [prodMat]
      · simp only [ofMatrixZ, comp, e]; exact half_sqrt hp
    split_ifs with h1 h2 h2
    · exact hZ (by linarith) h2.le
    · exact hY h1.le (not_lt.mp h2)
    · exact hZ h2.le (by linarith [not_lt.mp h1])
    · exact hX (not_lt.mp h1) (not_lt.mp h2)

/-- Products of the components of the quaternion of a rotation. -/
theorem ofMatrix_prod (R : Mat3 ℝ) (hR : IsRotation R) (i j : Fin 4) :
    comp (ofMatrix R) i * comp (ofMatrix R) j = prodMat R i j / 4 := by
  obtain ⟨c, hc, h⟩ := ofMatrix_comp R
  rw [h i, h j]
  have hs : √(prodMat R c c) ≠ 0 := (Real.sqrt_pos.mpr hc).ne'
  have h2 : √(prodMat R c c) ^ 2 = prodMat R c c := Real.sq_sqrt hc.le
  have hk := prodMat_rank R hR c i j
  have e : prodMat R c i * (0.5 / √(prodMat R c c)) * (prodMat R c j * (0.5 / √(prodMat R c c))) =
      (prodMat R c i * prodMat R c j) / (4 * √(prodMat R c c) ^ 2) := by
    field_simp
    ring
  rw [e, h2, hk]
  field_simp

/-- **C140** The quaternion built from a rotation matrix has norm 1 and its matrix is that rotation. -/
theorem quaternion_of_rotation (R : Mat3 ℝ) (hR : IsRotation R) :
    (ofMatrix R).w ^ 2 + (ofMatrix R).x ^ 2 + (ofMatrix R).y ^ 2 + (ofMatrix R).z ^ 2 = 1 ∧
    (ofMatrix R).matrix = R := by
  have h := ofMatrix_prod R hR
  have h00 := h 0 0; have h01 := h 0 1; have h02 := h 0 2; have h03 := h 0 3; have h11 := h 1 1
  have h12 := h 1 2; have h13 := h 1 3; have h22 := h 2 2; have h23 := h 2 3; have h33 := h 3 3
  simp [comp, prodMat] at h00 h01 h02 h03 h11 h12 h13 h22 h23 h33
  constructor
  · linarith
  · ext i j
    fin_cases i <;> fin_cases j <;> simp [Quat.matrix] <;> linarith

theorem sscRotation_eq (phi theta psi : ℝ) : sscRotation phi theta psi = Server.rotationZYX phi theta psi := by
  rw [Server.rotationZYX_eq]; rfl

/-- The matrix of three angles is a rotation. -/
theorem rotationZYX_isRotation (phi theta psi : ℝ) : IsRotation (Server.rotationZYX phi theta psi) := by
  have hz : ∀ a : ℝ, IsRotation (!![Real.cos a, -Real.sin a, 0; Real.sin a, Real.cos a, 0; 0, 0, 1] : Mat3 ℝ) := by
    intro a
    have := Real.sin_sq_add_cos_sq a
    refine ⟨?_, ?_, ?_⟩
    · ext i j; fin_cases i <;> fin_cases j <;> simp [Matrix.mul_apply, Fin.sum_univ_three] <;> linarith
    · ext i j; fin_cases i <;> fin_cases j <;> simp [Matrix.mul_apply, Fin.sum_univ_three] <;> linarith
    · simp [Matrix.det_fin_three]; linarith
  have hy : ∀ a : ℝ, IsRotation (!![Real.cos a, 0, Real.sin a; 0, 1, 0; -Real.sin a, 0, Real.cos a] : Mat3 ℝ) := by
    intro a
    have := Real.sin_sq_add_cos_sq a
    refine ⟨?_, ?_, ?_⟩
    · ext i j; fin_cases i <;> fin_cases j <;> simp [Matrix.mul_apply, Fin.sum_univ_three] <;> linarith
    · ext i j; fin_cases i <;> fin_cases j <;> simp [Matrix.mul_apply, Fin.sum_univ_three] <;> linarith
    · simp [Matrix.det_fin_three]; linarith
  have hx : ∀ a : ℝ, IsRotation (!![1, 0, 0; 0, Real.cos a, -Real.sin a; 0, Real.sin a, Real.cos a] : Mat3 ℝ) := by
    intro a
    have := Real.sin_sq_add_cos_sq a
    refine ⟨?_, ?_, ?_⟩
    · ext i j; fin_cases i <;> fin_cases j <;> simp [Matrix.mul_apply, Fin.sum_univ_three] <;> linarith
    · ext i j; fin_cases i <;> fin_cases j <;> simp [Matrix.mul_apply, Fin.sum_univ_three] <;> linarith
    · simp [Matrix.det_fin_three]; linarith
  have hm : ∀ A B : Mat3 ℝ, IsRotation A → IsRotation B → IsRotation (A * B) := by
    intro A B hA hB
    refine ⟨?_, ?_, ?_⟩
    · rw [Matrix.transpose_mul, Matrix.mul_assoc, ← Matrix.mul_assoc A.transpose, hA.orth, Matrix.one_mul, hB.orth]
    · rw [Matrix.transpose_mul, Matrix.mul_assoc, ← Matrix.mul_assoc B, hB.orth', Matrix.one_mul, hA.orth']
    · rw [Matrix.det_mul, hA.det, hB.det, one_mul]
  exact hm _ _ (hm _ _ (hz psi) (hy theta)) (hx phi)

/-! ### C138: the rotation convention -/

/-- Replacing by a character that is not in the result changes nothing. -/
theorem replaceFrom_of_not_mem (f : Str) (d : Char) (s : Str) (h : d ∉ replaceFrom f [d] 0 s) :
    replaceFrom f [d] 0 s = s := by
  induction s with
  | nil => rfl
  | cons c s ih =>
    unfold replaceFrom at h ⊢
    by_cases hp : f.isPrefixOf (c :: s) = true
    · rw [if_pos hp] at h
      simp at h
    · rw [if_neg hp] at h ⊢
      rw [ih (fun hd => h (List.mem_cons_of_mem _ hd))]

theorem lits : "x".toList = ['x'] ∧ "y".toList = ['y'] ∧ "z".toList = ['z'] ∧ "phi".toList = ['p', 'h', 'i'] ∧
    "theta".toList = ['t', 'h', 'e', 't', 'a'] ∧ "psi".toList = ['p', 's', 'i'] := by decide

theorem angleToAxis_of_plain (s : Str) (hx : 'x' ∉ angleToAxis s) (hy : 'y' ∉ angleToAxis s) (hz : 'z' ∉ angleToAxis s) :
    angleToAxis s = s := by
  unfold angleToAxis searchAndReplace at *
  obtain ⟨l1, l2, l3, -, -, -⟩ := lits
  rw [l1, l2, l3] at hx hy hz ⊢
  have e3 := replaceFrom_of_not_mem _ _ _ hz
  rw [e3] at hx hy ⊢
  have e2 := replaceFrom_of_not_mem _ _ _ hy
  rw [e2] at hx ⊢
  exact replaceFrom_of_not_mem _ _ _ hx

theorem angleToAxis_name (n : Str) (d : Char) (h : (n, d) ∈ [(['p', 'h', 'i'], 'x'), (['t', 'h', 'e', 't', 'a'], 'y'), (['p', 's', 'i'], 'z')])
    (rest : Str) : angleToAxis (n ++ rest) = d :: angleToAxis rest := by
  unfold angleToAxis searchAndReplace
  obtain ⟨l1, l2, l3, l4, l5, l6⟩ := lits
  rw [l1, l2, l3, l4, l5, l6]
  simp only [List.mem_cons, Prod.mk.injEq, List.not_mem_nil, or_false] at h
  rcases h with ⟨rfl, rfl⟩ | ⟨rfl, rfl⟩ | ⟨rfl, rfl⟩ <;> simp [replaceFrom]

theorem elementOf_inv (si : Str) (d : Char) (ap : Str) (hap : 'x' ∉ ap ∧ 'y' ∉ ap ∧ 'z' ∉ ap)
    (h : elementOf si = d :: ap) :
    si = d :: ap ∨ (d = 'x' ∧ si = ['p', 'h', 'i'] ++ ap) ∨ (d = 'y' ∧ si = ['t', 'h', 'e', 't', 'a'] ++ ap) ∨
      (d = 'z' ∧ si = ['p', 's', 'i'] ++ ap) := by
  unfold elementOf at h
  obtain ⟨l1, l2, l3, l4, l5, l6⟩ := lits
  by_cases hn : isAngleName (noApostrophs si) = true
  · rw [if_pos hn] at h
    right
    have hsi : si = noApostrophs si ++ si.dropWhile (· != '\'') := (List.takeWhile_append_dropWhile).symm
    have key : ∀ (n : Str) (e : Char), (n, e) ∈ [(['p', 'h', 'i'], 'x'), (['t', 'h', 'e', 't', 'a'], 'y'), (['p', 's', 'i'], 'z')] →
        noApostrophs si = n → d = e ∧ si = n ++ ap := by
      intro n e hne he
      rw [he] at hsi
      rw [hsi, angleToAxis_name n e hne] at h
      injection h with h1 h2
      have := angleToAxis_of_plain _ (h2 ▸ hap.1) (h2 ▸ hap.2.1) (h2 ▸ hap.2.2)
      rw [h2] at this
      refine ⟨h1.symm, ?_⟩
      rw [hsi, ← this]
    simp only [isAngleName, l4, l5, l6, Bool.or_eq_true, beq_iff_eq] at hn
    rcases hn with (hn | hn) | hn
    · exact .inl (key _ 'x' (by simp) hn)
    · exact .inr (.inl (key _ 'y' (by simp) hn))
    · exact .inr (.inr (key _ 'z' (by simp) hn))
  · rw [if_neg hn] at h
    exact .inl h

/-- The names the user writes for the rotation around z, around the new y and around the new x. -/
def zNames : List String := ["psi", "z"]
def yNames : List String := ["theta'", "y'"]
def xNames : List String := ["phi''", "x''"]

/-- The convention is read, checked and used without error. -/
def Accepted (s : List String) : Prop :=
  ∃ r, readRotation (s.map String.toList) = .ok r ∧ checkRotations r = .ok r ∧ supported r = .ok ()

theorem scanOne_inv {st st' : Scan} {si : Str} (h : scanOne st si = .ok st') :
    st' = { axis := st.axis || isAxisName (noApostrophs si), angle := st.angle || isAngleName (noApostrophs si),
            convention := st.convention ++ [elementOf si] } := by
  unfold scanOne at h
  split_ifs at h
  exact (Except.ok.inj h).symm

theorem readRotation_inv {s : List Str} {r : Rotation} (h : readRotation s = .ok r) :
    ∃ a b c, s = [a, b, c] ∧ r.convention = [elementOf a, elementOf b, elementOf c] ∧
      (r.order_by = "angle".toList → isAngleName (noApostrophs a) = true ∨ isAngleName (noApostrophs b) = true ∨
        isAngleName (noApostrophs c) = true) := by
  unfold readRotation at h
  by_cases hl : s.length = 3
  · rw [if_neg (by simpa using hl)] at h
    obtain ⟨a, b, c, rfl⟩ := List.length_eq_three.mp hl
    refine ⟨a, b, c, rfl, ?_⟩
    simp only [List.foldlM_cons, List.foldlM_nil, bind, pure, Except.pure] at h
    rcases h1 : scanOne { axis := false, angle := false, convention := [] } a with e | s1
    · rw [h1] at h; simp [Except.bind] at h
    rw [h1] at h
    simp only [Except.bind] at h
    rcases h2 : scanOne s1 b with e | s2
    · rw [h2] at h; simp at h
    rw [h2] at h
    simp only at h
    rcases h3 : scanOne s2 c with e | s3
    · rw [h3] at h; simp at h
    rw [h3] at h
    simp only [Except.ok.injEq] at h
    have e1 := scanOne_inv h1
    have e2 := scanOne_inv h2
    have e3 := scanOne_inv h3
    subst e1 e2 e3
    subst h
    refine ⟨rfl, ?_⟩
    intro ho
    simp only [orderBy, Bool.false_or] at ho
    by_cases hc : ((isAngleName (noApostrophs a) || isAngleName (noApostrophs b)) || isAngleName (noApostrophs c)) = true
    · simp only [Bool.or_eq_true] at hc
      rcases hc with (hc | hc) | hc
      · exact .inl hc
      · exact .inr (.inl hc)
      · exact .inr (.inr hc)
    · rw [if_neg hc] at ho
      split_ifs at ho <;> exact absurd ho (by decide)
  · rw [if_pos hl] at h
    simp at h

theorem supported_inv {r : Rotation} (h : supported r = .ok ()) :
    r.order_by = "angle".toList ∧ ∃ l, r.convention = "z".toList :: "y'".toList :: "x''".toList :: l := by
  unfold supported at h
  split_ifs at h with ho
  refine ⟨ho, ?_⟩
  unfold matchZYX at h
  rcases hc : r.convention with _ | ⟨a, _ | ⟨b, _ | ⟨c, l⟩⟩⟩
  · rw [hc] at h; simp [getAt, bind, Except.bind] at h
  · rw [hc] at h; simp [getAt, bind, Except.bind] at h
  · rw [hc] at h; simp [getAt, bind, Except.bind] at h
  · rw [hc] at h
    simp only [getAt, List.getElem?_cons_zero, List.getElem?_cons_succ, bind, Except.bind] at h
    split_ifs at h with hm
    simp only [Bool.and_eq_true, beq_iff_eq] at hm
    obtain ⟨⟨h1, h2⟩, h3⟩ := hm
    subst h1 h2 h3
    exact ⟨l, rfl⟩

theorem toList_inj {a b : String} (h : a.toList = b.toList) : a = b := String.toList_inj.mp h

/-- **C138** A convention is accepted exactly when it lists psi (or z), theta' (or y') and phi'' (or
x''), in this order, with at least one angle name: everything else is refused, in particular the
conventions the documentation mentions with axis names only or in another order. -/
theorem rotation_convention (s : List String) :
    Accepted s ↔ (∃ a ∈ zNames, ∃ b ∈ yNames, ∃ c ∈ xNames, s = [a, b, c]) ∧ s ≠ ["z", "y'", "x''"] := by
  constructor
  · rintro ⟨r, hr, -, hs⟩
    obtain ⟨ho, l, hl⟩ := supported_inv hs
    obtain ⟨a, b, c, habc, hconv, hang⟩ := readRotation_inv hr
    rw [hconv] at hl
    injection hl with ha hl
    injection hl with hb hl
    injection hl with hc hl
    have hang := hang ho
    have la : "z".toList = 'z' :: [] := by decide
    have lb : "y'".toList = 'y' :: ['\''] := by decide
    have lc : "x''".toList = 'x' :: ['\'', '\''] := by decide
    rw [la] at ha; rw [lb] at hb; rw [lc] at hc
    have ia := elementOf_inv a _ _ (by decide) ha
    have ib := elementOf_inv b _ _ (by decide) hb
    have ic := elementOf_inv c _ _ (by decide) hc
    have ia' : a = "z".toList ∨ a = "psi".toList := by
      rcases ia with h | ⟨h, -⟩ | ⟨h, -⟩ | ⟨-, h⟩
      · exact .inl (h.trans la.symm)
      · exact absurd h (by decide)
      · exact absurd h (by decide)
      · exact .inr (h.trans (by decide))
    have ib' : b = "y'".toList ∨ b = "theta'".toList := by
      rcases ib with h | ⟨h, -⟩ | ⟨-, h⟩ | ⟨h, -⟩
      · exact .inl (h.trans lb.symm)
      · exact absurd h (by decide)
      · exact .inr (h.trans (by decide))
      · exact absurd h (by decide)
    have ic' : c = "x''".toList ∨ c = "phi''".toList := by
      rcases ic with h | ⟨-, h⟩ | ⟨h, -⟩ | ⟨h, -⟩
      · exact .inl (h.trans lc.symm)
      · exact .inr (h.trans (by decide))
      · exact absurd h (by decide)
      · exact absurd h (by decide)
    rcases s with _ | ⟨s0, _ | ⟨s1, _ | ⟨s2, _ | ⟨s3, s⟩⟩⟩⟩ <;> simp only [List.map_cons, List.map_nil, List.cons.injEq, List.cons_ne_nil, and_false, reduceCtorEq, List.nil_eq, false_and] at habc
    obtain ⟨rfl, rfl, rfl, -⟩ := habc
    constructor
    · refine ⟨s0, ?_, s1, ?_, s2, ?_, rfl⟩
      · rcases ia' with h | h <;> rw [toList_inj h] <;> decide
      · rcases ib' with h | h <;> rw [toList_inj h] <;> decide
      · rcases ic' with h | h <;> rw [toList_inj h] <;> decide
    · intro he
      simp only [List.cons.injEq, and_true] at he
      obtain ⟨rfl, rfl, rfl⟩ := he
      revert hang
      decide
  · rintro ⟨⟨a, ha, b, hb, c, hc, rfl⟩, hne⟩
    refine ⟨⟨"angle".toList, ["z".toList, "y'".toList, "x''".toList]⟩, ?_, by decide +kernel, by decide +kernel⟩
    simp only [zNames, yNames, xNames, List.mem_cons, List.not_mem_nil, or_false] at ha hb hc
    rcases ha with rfl | rfl <;> rcases hb with rfl | rfl <;> rcases hc with rfl | rfl <;> first | (exact absurd rfl hne) | decide +kernel

/-! ### C139: the initial states -/

/-- The thirteen initial states of a body. -/
noncomputable def initVec (b : YamlInit) : List ℝ :=
  let q := ofMatrix (sscRotation b.phi b.theta b.psi)
  [b.x, b.y, b.z, b.u, b.v, b.w, b.p, b.q, b.r, q.w / quatNorm q, q.x / quatNorm q, q.y / quatNorm q, q.z / quatNorm q]

theorem setUB_append {α : Type} (pre l : List α) (k n : Nat) (v : α) (hn : n = pre.length + k) (hk : k < l.length) :
    setUB (pre ++ l) n v = .ok (pre ++ l.set k v) := by
  subst hn
  unfold setUB
  rw [if_pos (by simp; exact hk)]
  congr 1
  rw [List.set_append, if_neg (by omega), Nat.add_sub_cancel_left]

theorem writeBody_eq (b : YamlInit) (q : Quat ℝ) (pre rest : List ℝ) (i : Nat) (hi : pre.length = 13 * i) :
    writeBody (pre ++ (List.replicate 13 0 ++ rest)) i b q =
      .ok (pre ++ ([b.x, b.y, b.z, b.u, b.v, b.w, b.p, b.q, b.r, q.w / quatNorm q, q.x / quatNorm q, q.y / quatNorm q,
        q.z / quatNorm q] ++ rest)) := by
  unfold writeBody
  simp only [List.replicate, List.cons_append, List.nil_append, bind]
  rw [setUB_append pre _ 0 _ _ (by simp [XIDX, nbOfStatesPerBody, hi]; omega) (by simp)]
  simp only [Except.bind, List.set]
  rw [setUB_append pre _ 1 _ _ (by simp [YIDX, nbOfStatesPerBody, hi]; omega) (by simp)]
  simp only [List.set]
  rw [setUB_append pre _ 2 _ _ (by simp [ZIDX, nbOfStatesPerBody, hi]; omega) (by simp)]
  simp only [List.set]
  rw [setUB_append pre _ 3 _ _ (by simp [UIDX, nbOfStatesPerBody, hi]; omega) (by simp)]
  simp only [List.set]
  rw [setUB_append pre _ 4 _ _ (by simp [VIDX, nbOfStatesPerBody, hi]; omega) (by simp)]
  simp only [List.set]
  rw [setUB_append pre _ 5 _ _ (by simp [WIDX, nbOfStatesPerBody, hi]; omega) (by simp)]
  simp only [List.set]
  rw [setUB_append pre _ 6 _ _ (by simp [PIDX, nbOfStatesPerBody, hi]; omega) (by simp)]
  simp only [List.set]
  rw [setUB_append pre _ 7 _ _ (by simp [QIDX, nbOfStatesPerBody, hi]; omega) (by simp)]
  simp only [List.set]
  rw [setUB_append pre _ 8 _ _ (by simp [RIDX, nbOfStatesPerBody, hi]; omega) (by simp)]
  simp only [List.set]
  rw [setUB_append pre _ 9 _ _ (by simp [QRIDX, nbOfStatesPerBody, hi]; omega) (by simp)]
  simp only [List.set]
  rw [setUB_append pre _ 10 _ _ (by simp [QIIDX, nbOfStatesPerBody, hi]; omega) (by simp)]
  simp only [List.set]
  rw [setUB_append pre _ 11 _ _ (by simp [QJIDX, nbOfStatesPerBody, hi]; omega) (by simp)]
  simp only [List.set]
  rw [setUB_append pre _ 12 _ _ (by simp [QKIDX, nbOfStatesPerBody, hi]; omega) (by simp)]
  simp only [List.set]

theorem initBodies (conv : Rotation) (hc : supported conv = .ok ()) (bodies : List YamlInit) :
    ∀ (k : Nat) (pre : List ℝ), pre.length = 13 * k →
      ((List.range' k bodies.length).zip bodies).foldlM (initBody conv) (pre ++ List.replicate (13 * bodies.length) 0) =
        .ok (pre ++ bodies.flatMap initVec) := by
  induction bodies with
  | nil => intro k pre _; simp [pure, Except.pure]
  | cons b bodies ih =>
    intro k pre hk
    simp only [List.length_cons, List.range'_succ, List.zip_cons_cons, List.foldlM_cons]
    have e : List.replicate (13 * (bodies.length + 1)) (0 : ℝ) = List.replicate 13 0 ++ List.replicate (13 * bodies.length) 0 := by
      rw [← List.replicate_add]; congr 1; ring
    rw [e]
    have h1 : initBody conv (pre ++ (List.replicate 13 0 ++ List.replicate (13 * bodies.length) 0)) (k, b) =
        .ok ((pre ++ initVec b) ++ List.replicate (13 * bodies.length) 0) := by
      unfold initBody angle2matrix
      simp only [hc, Except.bind, bind]
      rw [writeBody_eq b _ pre _ k hk, List.append_assoc]
      rfl
    rw [h1]
    simp only [bind, Except.bind]
    rw [ih (k + 1) (pre ++ initVec b) (by rw [List.length_append, hk]; simp [initVec]; ring)]
    simp

theorem getInitialStates_eq (conv : Rotation) (hc : supported conv = .ok ()) (bodies : List YamlInit) :
    getInitialStates conv bodies = .ok (bodies.flatMap initVec) := by
  have h := initBodies conv hc bodies 0 [] rfl
  simp only [List.nil_append] at h
  rw [← List.range_eq_range'] at h
  exact h

theorem flatMap_get (bodies : List YamlInit) : ∀ (i k : Nat) (b : YamlInit), bodies[i]? = some b → k < 13 →
    (bodies.flatMap initVec)[13 * i + k]? = (initVec b)[k]? := by
  induction bodies with
  | nil => intro i k b h; simp at h
  | cons c bodies ih =>
    intro i k b h hk
    have hl : (initVec c).length = 13 := rfl
    rw [List.flatMap_cons]
    cases i with
    | zero =>
      simp only [List.getElem?_cons_zero, Option.some.injEq] at h
      subst h
      rw [Nat.mul_zero, Nat.zero_add, List.getElem?_append_left (by omega)]
    | succ i =>
      rw [List.getElem?_append_right (by omega), hl]
      rw [show 13 * (i + 1) + k - 13 = 13 * i + k by omega]
      exact ih i k b (by simpa using h) hk

theorem quatNorm_one {q : Quat ℝ} (h : q.w ^ 2 + q.x ^ 2 + q.y ^ 2 + q.z ^ 2 = 1) : quatNorm q = 1 := by
  unfold quatNorm
  rw [show q.w * q.w + q.x * q.x + q.y * q.y + q.z * q.z = 1 by linarith]
  exact Real.sqrt_one

/-- What the initial states of a body must be: the values of the YAML file, and a unit quaternion
whose rotation is the one of the angles of the YAML file. -/
structure StartsAs (X : List ℝ) (i : Nat) (b : YamlInit) : Prop where
  x : X[slot i .x]? = some b.x
  y : X[slot i .y]? = some b.y
  z : X[slot i .z]? = some b.z
  u : X[slot i .u]? = some b.u
  v : X[slot i .v]? = some b.v
  w : X[slot i .w]? = some b.w
  p : X[slot i .p]? = some b.p
  q : X[slot i .q]? = some b.q
  r : X[slot i .r]? = some b.r
  attitude : ∃ q : Quat ℝ, X[slot i .qr]? = some q.w ∧ X[slot i .qi]? = some q.x ∧ X[slot i .qj]? = some q.y ∧
    X[slot i .qk]? = some q.z ∧ q.w ^ 2 + q.x ^ 2 + q.y ^ 2 + q.z ^ 2 = 1 ∧
    q.matrix = Server.rotationZYX b.phi b.theta b.psi

/-- **C139** With an accepted convention, the state vector has thirteen values per body and each body
starts where the YAML file says: position, attitude, velocities. -/
theorem initial_states (s : List String) (hs : Accepted s) (bodies : List YamlInit) :
    ∃ x, initialStatesFromYaml (s.map String.toList) bodies = .ok x ∧ x.length = 13 * bodies.length ∧
      ∀ i b, bodies[i]? = some b → StartsAs x i b := by
  obtain ⟨r, h1, h2, h3⟩ := hs
  refine ⟨bodies.flatMap initVec, ?_, ?_, ?_⟩
  · unfold initialStatesFromYaml
    simp only [h1, h2, bind, Except.bind]
    exact getInitialStates_eq r h3 bodies
  · rw [List.length_flatMap]
    simp [initVec]
    ring
  · intro i b hb
    have g := fun k hk => flatMap_get bodies i k b hb hk
    obtain ⟨hn, hm⟩ := quaternion_of_rotation _ (rotationZYX_isRotation b.phi b.theta b.psi)
    rw [← sscRotation_eq] at hn hm
    have h1 := quatNorm_one hn
    refine ⟨g 0 (by omega), g 1 (by omega), g 2 (by omega), g 3 (by omega), g 4 (by omega), g 5 (by omega), g 6 (by omega),
      g 7 (by omega), g 8 (by omega), ofMatrix (sscRotation b.phi b.theta b.psi), ?_, ?_, ?_, ?_, hn, hm.trans (sscRotation_eq _ _ _)⟩
    · refine (g 9 (by omega)).trans ?_; simp [initVec, h1]
    · refine (g 10 (by omega)).trans ?_; simp [initVec, h1]
    · refine (g 11 (by omega)).trans ?_; simp [initVec, h1]
    · refine (g 12 (by omega)).trans ?_; simp [initVec, h1]

/-- **C138** A convention that is not accepted stops the construction of the simulation with an
exception, as soon as there is a body. -/
theorem refused_convention (s : List String) (hs : ¬ Accepted s) (b : YamlInit) (bodies : List YamlInit) :
    initialStatesFromYaml (s.map String.toList) (b :: bodies) = .error (.throw "InvalidInputException") := by
  have scan : ∀ st si, (∃ st', scanOne st si = .ok st') ∨ scanOne st si = .error (.throw "InvalidInputException") := by
    intro st si
    unfold scanOne
    split_ifs
    · exact .inr rfl
    · exact .inr rfl
    · exact .inl ⟨_, rfl⟩
  have read : (∃ r, readRotation (s.map String.toList) = .ok r) ∨
      readRotation (s.map String.toList) = .error (.throw "InvalidInputException") := by
    unfold readRotation
    by_cases hl : (s.map String.toList).length ≠ 3
    · rw [if_pos hl]; exact .inr rfl
    · rw [if_neg hl]
      have : ∀ (l : List Str) st, (∃ st', l.foldlM scanOne st = .ok st') ∨ l.foldlM scanOne st = .error (.throw "InvalidInputException") := by
        intro l
        induction l with
        | nil => intro st; exact .inl ⟨st, rfl⟩
        | cons a l ih =>
          intro st
          rw [List.foldlM_cons]
          rcases scan st a with ⟨st', h⟩ | h
          · rw [h]; exact ih st'
          · rw [h]; exact .inr rfl
      rcases this (s.map String.toList) { axis := false, angle := false, convention := [] } with ⟨st', h⟩ | h
      · rw [h]; exact .inl ⟨_, rfl⟩
      · rw [h]; exact .inr rfl
  unfold initialStatesFromYaml
  rcases read with ⟨r, hr⟩ | hr
  · rw [hr]
    simp only [bind, Except.bind]
    obtain ⟨x, y, z, -, hconv, -⟩ := readRotation_inv hr
    have hcheck : checkRotations r = .ok r ∨ checkRotations r = .error (.throw "InvalidInputException") := by
      unfold checkRotations
      rw [hconv]
      simp only [getAt, List.getElem?_cons_zero, List.getElem?_cons_succ, bind, Except.bind]
      split_ifs
      · exact .inl rfl
      · exact .inr rfl
    rcases hcheck with hk | hk
    · rw [hk]
      simp only
      have hsup : supported r = .error (.throw "InvalidInputException") := by
        have hn : supported r ≠ .ok () := fun h => hs ⟨r, hr, hk, h⟩
        unfold supported at hn ⊢
        split_ifs with ho
        · rw [if_pos ho] at hn
          unfold matchZYX at hn ⊢
          rw [hconv] at hn ⊢
          simp only [getAt, List.getElem?_cons_zero, List.getElem?_cons_succ, bind, Except.bind] at hn ⊢
          split_ifs at hn ⊢
          · exact absurd rfl hn
          · rfl
        · rfl
      unfold getInitialStates
      simp only [List.length_cons, List.range_succ_eq_map, List.zip_cons_cons, List.foldlM_cons, initBody, angle2matrix, hsup, bind, Except.bind]
    · rw [hk]
  · rw [hr]
    rfl

/-- Conventions that are accepted and refused. -/
example : Accepted ["psi", "theta'", "phi''"] := (rotation_convention _).mpr (by decide)
example : Accepted ["z", "theta'", "x''"] := (rotation_convention _).mpr (by decide)
example : ¬ Accepted ["z", "y'", "x''"] := fun h => ((rotation_convention _).mp h).2 rfl
example : ¬ Accepted ["psi", "phi'", "theta''"] := fun h => by
  obtain ⟨⟨a, ha, b, hb, c, hc, e⟩, -⟩ := (rotation_convention _).mp h
  simp only [List.cons.injEq, and_true] at e
  obtain ⟨rfl, rfl, rfl⟩ := e
  exact absurd hb (by decide)

/-- **C140** The quaternion that `BodyStates::convert` gives for three angles has norm 1 and the
rotation of these angles. -/
theorem euler_to_quaternion (s : List String) (hs : Accepted s) (phi theta psi : ℝ) :
    ∃ r q, readRotation (s.map String.toList) = .ok r ∧ convertEuler phi theta psi r = .ok q ∧
      q.w ^ 2 + q.x ^ 2 + q.y ^ 2 + q.z ^ 2 = 1 ∧ q.matrix = Server.rotationZYX phi theta psi := by
  obtain ⟨r, h1, -, h3⟩ := hs
  obtain ⟨hn, hm⟩ := quaternion_of_rotation _ (rotationZYX_isRotation phi theta psi)
  refine ⟨r, _, h1, ?_, hn, hm⟩
  unfold convertEuler
  rw [h3, sscRotation_eq]
  rfl

/-- A rotation for which the trace is not positive: half a turn. -/
example : ∃ R : Mat3 ℝ, IsRotation R ∧ ¬ 0 < R 0 0 + R 1 1 + R 2 2 := by
  refine ⟨_, rotationZYX_isRotation 0 0 Real.pi, ?_⟩
  rw [Server.rotationZYX_eq]
  simp

end Xdyn.Setup
