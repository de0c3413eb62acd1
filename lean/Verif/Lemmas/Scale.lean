import Verif.Lemmas.RobotUp
import Verif.Model.Invkin

/-! # Multiplying all lengths by a positive real number -/
set_option autoImplicit false

namespace XReal

/-- `c * x` for a real `c`. -/
noncomputable def sc (c : ℝ) (x : XReal) : XReal := fin c * x

variable {c : ℝ}

@[simp] theorem sc_fin (a : ℝ) : sc c (fin a) = fin (c * a) := rfl
@[simp] theorem sc_nan : sc c nan = nan := rfl
theorem sc_pinf (hc : 0 < c) : sc c pinf = pinf := by
  show signInf c = pinf; simp [signInf, hc, hc.ne']
theorem sc_ninf (hc : 0 < c) : sc c ninf = ninf := by
  show signInf (-c) = ninf; simp [signInf, hc.ne', hc.le]
theorem signInf_sc (hc : 0 < c) (a : ℝ) : signInf (c * a) = signInf a := by
  simp [signInf, hc, hc.ne']
theorem sc_signInf (hc : 0 < c) (a : ℝ) : sc c (signInf a) = signInf a := by
  unfold signInf; split_ifs <;> simp [sc_pinf hc, sc_ninf hc]

theorem add_sc (hc : 0 < c) (x y : XReal) : sc c x + sc c y = sc c (x + y) := by
  cases x <;> cases y <;> simp only [sc_fin, sc_nan, sc_pinf hc, sc_ninf hc, nan_add, add_nan, fin_add, mul_add] <;>
    first
    | rfl
    | exact (sc_pinf hc).symm
    | exact (sc_ninf hc).symm
theorem neg_sc (hc : 0 < c) (x : XReal) : -sc c x = sc c (-x) := by
  cases x
  · rfl
  · rw [sc_ninf hc]; exact (sc_pinf hc).symm
  · rw [sc_pinf hc]; exact (sc_ninf hc).symm
  · simp
theorem sub_sc (hc : 0 < c) (x y : XReal) : sc c x - sc c y = sc c (x - y) := by
  show sc c x + -sc c y = sc c (x + -y)
  rw [neg_sc hc, add_sc hc]
theorem mul_comm' (x y : XReal) : x * y = y * x := by
  cases x <;> cases y <;> first | rfl | (simp only [fin_mul, mul_comm])
theorem sc_mul (hc : 0 < c) (x y : XReal) : sc c x * y = sc c (x * y) := by
  cases x <;> cases y <;> simp only [sc_fin, sc_nan, sc_pinf hc, sc_ninf hc, nan_mul, mul_nan, fin_mul, mul_assoc]
  all_goals first
    | exact (sc_pinf hc).symm
    | exact (sc_ninf hc).symm
    | (show signInf _ = sc c (signInf _); rw [sc_signInf hc]; done)
    | (show signInf _ = sc c (signInf _); rw [sc_signInf hc, signInf_sc hc]; done)
    | (show signInf _ = sc c (signInf _); rw [sc_signInf hc, ← mul_neg, signInf_sc hc]; done)
theorem mul_sc (hc : 0 < c) (x y : XReal) : x * sc c y = sc c (x * y) := by
  rw [mul_comm', sc_mul hc, mul_comm']
theorem sc_sc {d : ℝ} (hc : 0 < c) (hd : 0 < d) (x : XReal) : sc c (sc d x) = sc (c * d) x := by
  cases x <;> simp only [sc_fin, sc_nan, sc_pinf hc, sc_ninf hc, sc_pinf hd, sc_ninf hd, sc_pinf (mul_pos hc hd),
    sc_ninf (mul_pos hc hd), mul_assoc]
theorem sc_div_sc (hc : 0 < c) (x y : XReal) : sc c x / sc c y = x / y := by
  cases x <;> cases y <;> simp only [sc_fin, sc_nan, sc_pinf hc, sc_ninf hc, nan_div, div_nan]
  all_goals first
    | rfl
    | (simp only [fin_div', mul_eq_zero, hc.ne', false_or, signInf_sc hc, mul_div_mul_left _ _ hc.ne']; done)
    | (rename_i b
       show (if c * b < 0 then _ else _) = (if b < 0 then _ else _)
       simp only [mul_neg_iff, hc, true_and, not_lt.2 hc.le, false_and, or_false])
theorem sqrt_sc (hc : 0 < c) (x : XReal) : Elem.sqrt (sc (c * c) x) = sc c (Elem.sqrt x) := by
  have h := mul_pos hc hc
  cases x
  · rfl
  · rw [sc_ninf h]; rfl
  · rw [sc_pinf h]; exact (sc_pinf hc).symm
  · rename_i a
    simp only [sc_fin, sqrt_fin', mul_nonneg_iff_of_pos_left h]
    split_ifs with ha
    · simp [Real.sqrt_mul h.le, Real.sqrt_mul_self hc.le]
    · rfl
theorem sc_lt_sc (hc : 0 < c) (x y : XReal) : sc c x < sc c y ↔ x < y := by
  cases x <;> cases y <;> simp only [sc_fin, sc_nan, sc_pinf hc, sc_ninf hc, fin_lt, mul_lt_mul_iff_right₀ hc] <;> exact Iff.rfl
theorem sc_zero : sc c 0 = 0 := by show fin (c * 0) = fin 0; simp
theorem sc_lt_zero (hc : 0 < c) (x : XReal) : sc c x < 0 ↔ x < 0 := by
  conv_lhs => rw [← sc_zero (c := c)]
  exact sc_lt_sc hc _ _
theorem sc_feq_zero (hc : 0 < c) (x : XReal) : feq (sc c x) 0 ↔ feq x 0 := by
  cases x <;> simp only [sc_fin, sc_nan, sc_pinf hc, sc_ninf hc]
  simp [hc.ne']
theorem arctan2_sc (hc : 0 < c) (y x : XReal) : Elem.arctan2 (sc c y) (sc c x) = Elem.arctan2 y x := by
  cases x <;> cases y <;> simp only [sc_fin, sc_nan, sc_pinf hc, sc_ninf hc]
  all_goals first
    | rfl
    | (simp only [arctan2_fin]
       rename_i a b
       have := Complex.arg_real_mul (⟨a, b⟩ : ℂ) hc
       rw [← this]; congr 2; apply Complex.ext <;> simp)

end XReal

open XReal

namespace V3
/-- `c * v` -/
noncomputable def sc (c : ℝ) (v : V3 XReal) : V3 XReal := ⟨XReal.sc c v.x, XReal.sc c v.y, XReal.sc c v.z⟩
variable {c : ℝ}
theorem sc_up (v : V3 ℝ) : v.up.sc c = (V3.smul c v).up := rfl
theorem add_sc (hc : 0 < c) (a b : V3 XReal) : a.sc c + b.sc c = (a + b).sc c := by
  ext <;> exact XReal.add_sc hc _ _
theorem sub_sc (hc : 0 < c) (a b : V3 XReal) : a.sc c - b.sc c = (a - b).sc c := by
  ext <;> exact XReal.sub_sc hc _ _
theorem neg_sc (hc : 0 < c) (a : V3 XReal) : -a.sc c = (-a).sc c := by
  ext <;> exact XReal.neg_sc hc _
theorem dot_sc (hc : 0 < c) (a b : V3 XReal) : a.dot (b.sc c) = XReal.sc c (a.dot b) := by
  simp only [dot, sc, XReal.mul_sc hc, XReal.add_sc hc]
theorem sc_dot (hc : 0 < c) (a b : V3 XReal) : (a.sc c).dot b = XReal.sc c (a.dot b) := by
  simp only [dot, sc, XReal.sc_mul hc, XReal.add_sc hc]
theorem norm_sc (hc : 0 < c) (a : V3 XReal) : (a.sc c).norm = XReal.sc c a.norm := by
  simp only [norm, sc, XReal.sc_mul hc, XReal.mul_sc hc, XReal.sc_sc hc hc, XReal.add_sc (mul_pos hc hc), XReal.sqrt_sc hc]
theorem sc_sdiv_sc (hc : 0 < c) (a : V3 XReal) (x : XReal) : (a.sc c).sdiv (XReal.sc c x) = a.sdiv x := by
  ext <;> exact XReal.sc_div_sc hc _ _
theorem sc_smul (hc : 0 < c) (a : V3 XReal) (x : XReal) : V3.smul (XReal.sc c x) a = (V3.smul x a).sc c := by
  ext <;> exact XReal.sc_mul hc _ _
theorem mulVec_sc (hc : 0 < c) (A : M3 XReal) (v : V3 XReal) : A.mulVec (v.sc c) = (A.mulVec v).sc c := by
  ext <;> simp only [M3.mulVec, sc, XReal.mul_sc hc, XReal.add_sc hc]
theorem sc_zero : (0 : V3 XReal).sc c = 0 := by
  ext <;> exact XReal.sc_zero
theorem isZero_sc (hc : 0 < c) (v : V3 XReal) : isZeroV (v.sc c) ↔ isZeroV v := by
  simp only [isZeroV, sc, XReal.sc_feq_zero hc]
end V3

section
variable {c : ℝ}

theorem subproblem4_sc (hc : 0 < c) (p q k : V3 XReal) (d : XReal) :
    subproblem4 p (q.sc c) k (XReal.sc c d) = subproblem4 p q k d := by
  simp only [subproblem4, V3.dot_sc hc, V3.mulVec_sc hc, XReal.neg_sc hc, XReal.sub_sc hc, XReal.sc_mul hc, XReal.mul_sc hc,
    XReal.sc_sc hc hc, XReal.add_sc (mul_pos hc hc), XReal.sqrt_sc hc, XReal.sc_div_sc hc, XReal.arctan2_sc hc]

theorem subproblem3_sc (hc : 0 < c) (p q k : V3 XReal) (d : XReal) :
    subproblem3 (p.sc c) (q.sc c) k (XReal.sc c d) = subproblem3 p q k d := by
  simp only [subproblem3, V3.dot_sc hc, V3.sc_dot hc, V3.sc_smul hc, V3.sub_sc hc, V3.add_sc hc, V3.norm_sc hc, V3.sc_sdiv_sc hc,
    XReal.sc_mul hc, XReal.mul_sc hc, XReal.sc_sc hc hc, XReal.sub_sc (mul_pos hc hc), XReal.add_sc (mul_pos hc hc),
    XReal.neg_sc (mul_pos hc hc), XReal.sc_div_sc (mul_pos hc hc), XReal.sc_lt_zero (mul_pos hc hc)]

theorem subproblem1_sc (hc : 0 < c) (p q k : V3 XReal)
    (h : (XReal.sc c (p - q).norm < Elem.sqrt npEps) ↔ ((p - q).norm < Elem.sqrt npEps)) :
    subproblem1 (p.sc c) (q.sc c) k = subproblem1 p q k := by
  simp only [subproblem1, V3.sc_dot hc, V3.sc_smul hc, V3.sub_sc hc, V3.norm_sc hc, V3.sc_sdiv_sc hc, h]

end

section
variable {c : ℝ}

theorem forAppend_congr {β γ : Type} (l : List β) (f g : β → Except PyErr (List γ)) (h : ∀ x, f x = g x) :
    forAppend l f = forAppend l g := by rw [show f = g from funext h]

theorem r6Search_sc (hc : 0 < c) (N : Normalizer XReal) (h0 h1 h2 h3 h4 h5 P0 P1 P2 P3 P4 P5 P6 : V3 XReal) (R06 : M3 XReal)
    (p0T : V3 XReal)
    (h : ∀ q1 q3 : XReal, (XReal.sc c (P2 + (rot h2 q3).mulVec P3 - ((rot h0 q1).transpose.mulVec (p0T - R06.mulVec P6) - (P0 + P1))).norm
        < Elem.sqrt npEps) ↔
      ((P2 + (rot h2 q3).mulVec P3 - ((rot h0 q1).transpose.mulVec (p0T - R06.mulVec P6) - (P0 + P1))).norm < Elem.sqrt npEps)) :
    r6Search [h0, h1, h2, h3, h4, h5] [P0.sc c, P1.sc c, P2.sc c, P3.sc c, P4.sc c, P5.sc c, P6.sc c] N R06 (p0T.sc c) =
      r6Search [h0, h1, h2, h3, h4, h5] [P0, P1, P2, P3, P4, P5, P6] N R06 p0T := by
  simp only [r6Search, V3.add_sc hc, V3.dot_sc hc, V3.mulVec_sc hc, V3.sub_sc hc, subproblem4_sc hc]
  congr 1
  funext Q1
  refine forAppend_congr _ _ _ fun q1 => ?_
  simp only [r6Shoulder, V3.add_sc hc, V3.mulVec_sc hc, V3.sub_sc hc, V3.norm_sc hc, subproblem3_sc hc]
  congr 1
  funext Q3
  congr 1
  funext Q3'
  refine forAppend_congr _ _ _ fun q3 => ?_
  simp only [r6Elbow, V3.add_sc hc, V3.mulVec_sc hc]
  rw [subproblem1_sc hc _ _ _ (h q1 q3)]

theorem urSearch_sc (hc : 0 < c) (N : Normalizer XReal) (h0 h1 h2 h3 h4 h5 P0 P1 P2 P3 P4 P5 P6 : V3 XReal) (R06 : M3 XReal)
    (p0T : V3 XReal)
    (h : ∀ q1 q24 q3 : XReal, (XReal.sc c (P2 + (rot h2 q3).mulVec P3 - (rot h0 q1).transpose.mulVec (p0T - R06.mulVec (P6 + P5) - P0 -
        (rot h0 q1).mulVec P1 - (rot h0 q1 * rot h3 q24).mulVec P4)).norm < Elem.sqrt npEps) ↔
      ((P2 + (rot h2 q3).mulVec P3 - (rot h0 q1).transpose.mulVec (p0T - R06.mulVec (P6 + P5) - P0 -
        (rot h0 q1).mulVec P1 - (rot h0 q1 * rot h3 q24).mulVec P4)).norm < Elem.sqrt npEps)) :
    urSearch [h0, h1, h2, h3, h4, h5] [P0.sc c, P1.sc c, P2.sc c, P3.sc c, P4.sc c, P5.sc c, P6.sc c] N R06 (p0T.sc c) =
      urSearch [h0, h1, h2, h3, h4, h5] [P0, P1, P2, P3, P4, P5, P6] N R06 p0T := by
  simp only [urSearch, V3.add_sc hc, V3.dot_sc hc, V3.mulVec_sc hc, V3.sub_sc hc, subproblem4_sc hc]
  congr 1
  funext Q1
  refine forAppend_congr _ _ _ fun q1 => ?_
  simp only [urShoulder]
  congr 1
  funext Q
  refine forAppend_congr _ _ _ fun x => ?_
  simp only [urWrist, V3.mulVec_sc hc, V3.sub_sc hc, V3.norm_sc hc, subproblem3_sc hc]
  congr 1
  funext Q3
  congr 1
  funext Q3'
  refine forAppend_congr _ _ _ fun q3 => ?_
  simp only [urElbow, V3.add_sc hc, V3.mulVec_sc hc]
  rw [subproblem1_sc hc _ _ _ (h q1 x.1 q3)]

theorem moveColumn_sc (hc : 0 < c) (H P : List (V3 XReal)) (src ax dst : Nat) :
    moveColumn H (P.map (V3.sc c)) src ax dst = ((moveColumn H P src ax dst).1.map (V3.sc c), (moveColumn H P src ax dst).2) := by
  simp only [moveColumn, List.getElem?_map]
  cases P[src]? with
  | none => rfl
  | some a =>
    simp only [Option.map_some, V3.isZero_sc hc]
    split_ifs with h1
    · rfl
    cases H[ax]? with
    | none => rfl
    | some h =>
      simp only [V3.sc_dot hc, V3.sc_smul hc, V3.sub_sc hc, V3.isZero_sc hc]
      split_ifs with h2
      · cases P[dst]? with
        | none => rfl
        | some b => simp only [Option.map_some, V3.add_sc hc, List.map_set, V3.sc_zero]
      · rfl

theorem fixWrist_sc (hc : 0 < c) (H P : List (V3 XReal)) :
    fixWrist H (P.map (V3.sc c)) = ((fixWrist H P).1.map (V3.sc c), (fixWrist H P).2) := by
  simp only [fixWrist, moveColumn_sc hc]
  rcases moveColumn H P 4 3 3 with ⟨P1, e | u⟩
  · rfl
  · exact moveColumn_sc hc H P1 5 5 6

/-- Rotations by something that is not a number. -/
theorem rot_nonfin (k : V3 XReal) {q : XReal} (hq : ∀ a, q ≠ .fin a) : rot k q = ⟨.nan, .nan, .nan, .nan, .nan, .nan, .nan, .nan, .nan⟩ := by
  have hs : Elem.sin q = .nan := by
    cases q
    · rfl
    · rfl
    · rfl
    · exact absurd rfl (hq _)
  ext <;> simp [rot, hs]

end
