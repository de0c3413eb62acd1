import Verif.Lemmas.Rot

/-! # Derivatives of vector- and matrix-valued curves, entrywise -/
set_option autoImplicit false

theorem HasDerivM3.congr_deriv {f : ℝ → M3 ℝ} {a b : M3 ℝ} {t : ℝ} (h : HasDerivM3 f a t) (e : a = b) :
    HasDerivM3 f b t := e ▸ h

theorem HasDerivV3.congr_deriv {f : ℝ → V3 ℝ} {a b : V3 ℝ} {t : ℝ} (h : HasDerivV3 f a t) (e : a = b) :
    HasDerivV3 f b t := e ▸ h

theorem HasDerivM3.const (A : M3 ℝ) (t : ℝ) : HasDerivM3 (fun _ => A) 0 t := by
  constructor <;> exact hasDerivAt_const t _

theorem HasDerivV3.const (v : V3 ℝ) (t : ℝ) : HasDerivV3 (fun _ => v) 0 t :=
  ⟨hasDerivAt_const t _, hasDerivAt_const t _, hasDerivAt_const t _⟩

theorem HasDerivM3.add {f g : ℝ → M3 ℝ} {a b : M3 ℝ} {t : ℝ} (hf : HasDerivM3 f a t) (hg : HasDerivM3 g b t) :
    HasDerivM3 (fun s => f s + g s) (a + b) t :=
  ⟨hf.d00.add hg.d00, hf.d01.add hg.d01, hf.d02.add hg.d02, hf.d10.add hg.d10, hf.d11.add hg.d11,
   hf.d12.add hg.d12, hf.d20.add hg.d20, hf.d21.add hg.d21, hf.d22.add hg.d22⟩

theorem HasDerivV3.add {f g : ℝ → V3 ℝ} {a b : V3 ℝ} {t : ℝ} (hf : HasDerivV3 f a t) (hg : HasDerivV3 g b t) :
    HasDerivV3 (fun s => f s + g s) (a + b) t :=
  ⟨hf.1.add hg.1, hf.2.1.add hg.2.1, hf.2.2.add hg.2.2⟩

private theorem dot3 {f1 g1 f2 g2 f3 g3 : ℝ → ℝ} {a1 b1 a2 b2 a3 b3 t : ℝ}
    (h1 : HasDerivAt f1 a1 t) (k1 : HasDerivAt g1 b1 t) (h2 : HasDerivAt f2 a2 t) (k2 : HasDerivAt g2 b2 t)
    (h3 : HasDerivAt f3 a3 t) (k3 : HasDerivAt g3 b3 t) :
    HasDerivAt (fun s => f1 s * g1 s + f2 s * g2 s + f3 s * g3 s)
      ((a1 * g1 t + a2 * g2 t + a3 * g3 t) + (f1 t * b1 + f2 t * b2 + f3 t * b3)) t :=
  (((h1.mul k1).add (h2.mul k2)).add (h3.mul k3)).congr_deriv (by ring)

theorem HasDerivM3.mul {f g : ℝ → M3 ℝ} {a b : M3 ℝ} {t : ℝ} (hf : HasDerivM3 f a t) (hg : HasDerivM3 g b t) :
    HasDerivM3 (fun s => f s * g s) (a * g t + f t * b) t :=
  ⟨dot3 hf.d00 hg.d00 hf.d01 hg.d10 hf.d02 hg.d20, dot3 hf.d00 hg.d01 hf.d01 hg.d11 hf.d02 hg.d21,
   dot3 hf.d00 hg.d02 hf.d01 hg.d12 hf.d02 hg.d22, dot3 hf.d10 hg.d00 hf.d11 hg.d10 hf.d12 hg.d20,
   dot3 hf.d10 hg.d01 hf.d11 hg.d11 hf.d12 hg.d21, dot3 hf.d10 hg.d02 hf.d11 hg.d12 hf.d12 hg.d22,
   dot3 hf.d20 hg.d00 hf.d21 hg.d10 hf.d22 hg.d20, dot3 hf.d20 hg.d01 hf.d21 hg.d11 hf.d22 hg.d21,
   dot3 hf.d20 hg.d02 hf.d21 hg.d12 hf.d22 hg.d22⟩

theorem HasDerivM3.mulVec {f : ℝ → M3 ℝ} {g : ℝ → V3 ℝ} {a : M3 ℝ} {b : V3 ℝ} {t : ℝ}
    (hf : HasDerivM3 f a t) (hg : HasDerivV3 g b t) :
    HasDerivV3 (fun s => (f s).mulVec (g s)) (a.mulVec (g t) + (f t).mulVec b) t :=
  ⟨dot3 hf.d00 hg.1 hf.d01 hg.2.1 hf.d02 hg.2.2, dot3 hf.d10 hg.1 hf.d11 hg.2.1 hf.d12 hg.2.2,
   dot3 hf.d20 hg.1 hf.d21 hg.2.1 hf.d22 hg.2.2⟩

theorem HasDerivM3.smul {c : ℝ → ℝ} {c' : ℝ} {f : ℝ → M3 ℝ} {a : M3 ℝ} {t : ℝ} (hc : HasDerivAt c c' t)
    (hf : HasDerivM3 f a t) : HasDerivM3 (fun s => M3.smul (c s) (f s)) (M3.smul c' (f t) + M3.smul (c t) a) t :=
  ⟨hc.mul hf.d00, hc.mul hf.d01, hc.mul hf.d02, hc.mul hf.d10, hc.mul hf.d11, hc.mul hf.d12, hc.mul hf.d20,
   hc.mul hf.d21, hc.mul hf.d22⟩

theorem HasDerivV3.smul {c : ℝ → ℝ} {c' : ℝ} {f : ℝ → V3 ℝ} {a : V3 ℝ} {t : ℝ} (hc : HasDerivAt c c' t)
    (hf : HasDerivV3 f a t) : HasDerivV3 (fun s => V3.smul (c s) (f s)) (V3.smul c' (f t) + V3.smul (c t) a) t :=
  ⟨hc.mul hf.1, hc.mul hf.2.1, hc.mul hf.2.2⟩

theorem HasDerivV3.hat {f : ℝ → V3 ℝ} {a : V3 ℝ} {t : ℝ} (hf : HasDerivV3 f a t) :
    HasDerivM3 (fun s => hat (f s)) (hat a) t :=
  ⟨hasDerivAt_const t _, hf.2.2.neg, hf.2.1, hf.2.2, hasDerivAt_const t _, hf.1.neg, hf.2.1.neg, hf.1,
   hasDerivAt_const t _⟩

/-- `rot k` is a one-parameter group with generator `hat k`. -/
theorem hasDeriv_rot (k : V3 ℝ) (hk : IsUnit3 k) (t : ℝ) : HasDerivM3 (fun s => rot k s) (hat k * rot k t) t := by
  have h1 := HasDerivM3.smul (Real.hasDerivAt_sin t) (HasDerivM3.const (_root_.hat k) t)
  have h2 := HasDerivM3.smul ((Real.hasDerivAt_cos t).const_sub 1) (HasDerivM3.const (_root_.hat k * _root_.hat k) t)
  refine (((HasDerivM3.const 1 t).add h1).add h2).congr_deriv ?_
  unfold IsUnit3 at hk
  ext <;> simp [rot] <;> grind
