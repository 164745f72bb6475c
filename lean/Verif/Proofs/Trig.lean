import Verif.Spec.Geometry
import Mathlib.Tactic.Linarith
import Mathlib.Tactic.LinearCombination
import Mathlib.Tactic.FieldSimp
import Mathlib.Tactic.Positivity
/-
Lemmas on `atan2`, `arccos` and polar coordinates.
-/
namespace Alta
open Real

theorem norm_mk (x y : ℝ) : ‖(⟨x, y⟩ : ℂ)‖ = √(x ^ 2 + y ^ 2) := by
  rw [Complex.norm_eq_sqrt_sq_add_sq]

/-- polar decomposition of the plane by `atan2` -/
theorem sqrt_mul_cos_atan2 (x y : ℝ) : √(x ^ 2 + y ^ 2) * cos (atan2 y x) = x := by
  rw [← norm_mk]; exact Complex.norm_mul_cos_arg ⟨x, y⟩

theorem sqrt_mul_sin_atan2 (x y : ℝ) : √(x ^ 2 + y ^ 2) * sin (atan2 y x) = y := by
  rw [← norm_mk]; exact Complex.norm_mul_sin_arg ⟨x, y⟩

theorem atan2_mem (x y : ℝ) : atan2 y x ∈ Set.Ioc (-π) π := Complex.arg_mem_Ioc _

theorem atan2_polar {r t : ℝ} (hr : 0 < r) (ht : t ∈ Set.Ioc (-π) π) :
    atan2 (r * sin t) (r * cos t) = t := by
  have h := Complex.arg_mul_cos_add_sin_mul_I hr ht
  unfold atan2
  convert h using 2
  apply Complex.ext <;> simp [Complex.cos_ofReal_re, Complex.sin_ofReal_re]

/-- `atan2` inverts polar coordinates up to a full turn -/
theorem atan2_polar_mod {r t : ℝ} (hr : 0 < r) :
    SameAngle (atan2 (r * sin t) (r * cos t)) t := by
  have h := Complex.arg_mul_cos_add_sin_mul_I_sub hr t
  unfold atan2
  have e : (⟨r * cos t, r * sin t⟩ : ℂ) = (r : ℂ) * (Complex.cos t + Complex.sin t * Complex.I) := by
    apply Complex.ext <;> simp [Complex.cos_ofReal_re, Complex.sin_ofReal_re]
  rw [e]
  exact ⟨_, by linarith⟩

theorem atan2_scale {k : ℝ} (y x : ℝ) (hk : 0 < k) : atan2 (k * y) (k * x) = atan2 y x := by
  unfold atan2
  have : (⟨k * x, k * y⟩ : ℂ) = (k : ℂ) * ⟨x, y⟩ := by apply Complex.ext <;> simp
  rw [this, Complex.arg_real_mul _ hk]

theorem atan2_zero_zero : atan2 0 0 = 0 := by
  unfold atan2
  have : (⟨0, 0⟩ : ℂ) = 0 := rfl
  rw [this, Complex.arg_zero]

theorem SameAngle.cos {a b : ℝ} (h : SameAngle a b) : Real.cos a = Real.cos b := by
  obtain ⟨k, rfl⟩ := h
  rw [mul_comm (2 * π)]; exact cos_add_int_mul_two_pi b k

theorem SameAngle.sin {a b : ℝ} (h : SameAngle a b) : Real.sin a = Real.sin b := by
  obtain ⟨k, rfl⟩ := h
  rw [mul_comm (2 * π)]; exact sin_add_int_mul_two_pi b k

theorem SameAngle.of_cos_sin {a b : ℝ} (hc : Real.cos a = Real.cos b)
    (hs : Real.sin a = Real.sin b) : SameAngle a b := by
  have : Real.cos (a - b) = 1 := by
    rw [cos_sub, hc, hs]; nlinarith [Real.sin_sq_add_cos_sq b]
  obtain ⟨k, hk⟩ := (Real.cos_eq_one_iff _).1 this
  exact ⟨k, by linarith⟩

end Alta
