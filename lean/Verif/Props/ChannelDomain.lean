import Verif.Model.OrthoBasis
import Verif.Spec.Rational
import Mathlib.Tactic.Linarith
import Mathlib.Tactic.Positivity
import Mathlib.Tactic.FieldSimp
import Mathlib.Tactic.Ring
/-
C33: the domain of a new channel of a rational function is never degenerate, and the data are moved
into [-1, 1].
-/
namespace Alta
noncomputable section

/-- the coordinate `unitCoord` for numbers -/
def centred (lo hi x : ℝ) : ℝ := 2 * (x - lo) / (hi - lo) - 1

theorem unitCoord_centred (lo hi x : List ℝ) (k : ℕ) : unitCoord lo hi x k = centred (arr lo k) (arr hi k) (arr x k) := rfl

theorem inflate_domain (lo hi : List ℝ) : inflate lo hi = RatKind.domain .power lo hi := by
  simp [inflate, RatKind.domain]

theorem arr_zip_map (lo hi : List ℝ) (f : ℝ × ℝ → ℝ) (k : ℕ) (h1 : k < lo.length) (h2 : k < hi.length) :
    arr ((List.zip lo hi).map f) k = f (arr lo k, arr hi k) := by
  simp [arr, List.getD_eq_getElem?_getD, List.zip, h1, h2]

/-- **C33.**  For bounds `lo ≤ hi` of the data (equal or not), the bounds that a new channel is given, for
    each of the four bases, enclose them and are distinct, so that the coordinate of the basis functions
    exists; it is in [-1, 1] on the data, it is an increasing function of `x` that reaches both ends when the data has an
    extent, and it is 0 when the data has none. -/
theorem channel_domain (kind : RatKind) (lo hi : List ℝ) (k : ℕ) (h1 : k < lo.length) (h2 : k < hi.length)
    (h : arr lo k ≤ arr hi k) :
    let d := kind.domain lo hi
    arr d.1 k < arr d.2 k ∧
    (∀ x, arr lo k ≤ arr x k → arr x k ≤ arr hi k → unitCoord d.1 d.2 x k ∈ Set.Icc (-1) 1) ∧
    (∀ x y, arr x k < arr y k → unitCoord d.1 d.2 x k < unitCoord d.1 d.2 y k) ∧
    (arr lo k < arr hi k → unitCoord d.1 d.2 lo k = -1 ∧ unitCoord d.1 d.2 hi k = 1) ∧
    (arr lo k = arr hi k → unitCoord d.1 d.2 lo k = 0) := by
  intro d
  simp only [unitCoord_centred]
  generalize hlo' : arr d.1 k = lo'
  generalize hhi' : arr d.2 k = hi'
  set w : ℝ := if kind = .power then 0.1 else 1 with hw
  have hwpos : 0 < w := by rw [hw]; split <;> norm_num
  have e1 : lo' = if arr lo k = arr hi k then arr lo k - w else arr lo k := hlo' ▸
    arr_zip_map lo hi (fun b => if b.1 = b.2 then b.1 - w else b.1) k h1 h2
  have e2 : hi' = if arr lo k = arr hi k then arr hi k + w else arr hi k := hhi' ▸
    arr_zip_map lo hi (fun b => if b.1 = b.2 then b.2 + w else b.2) k h1 h2
  have hlt : lo' < hi' := by
    rw [e1, e2]
    split
    · linarith
    · rename_i hne; exact lt_of_le_of_ne h hne
  have hle1 : lo' ≤ arr lo k := by rw [e1]; split <;> linarith
  have hle2 : arr hi k ≤ hi' := by rw [e2]; split <;> linarith
  have hd : 0 < hi' - lo' := by linarith
  refine ⟨hlt, ?_, ?_, ?_, ?_⟩
  · intro x hx1 hx2
    unfold centred
    have a1 : 0 ≤ 2 * (arr x k - lo') / (hi' - lo') := div_nonneg (by linarith) hd.le
    have a2 : 2 * (arr x k - lo') / (hi' - lo') ≤ 2 := by rw [div_le_iff₀ hd]; linarith
    exact ⟨by linarith, by linarith⟩
  · intro x y hxy
    unfold centred
    have : 2 * (arr x k - lo') / (hi' - lo') < 2 * (arr y k - lo') / (hi' - lo') :=
      div_lt_div_of_pos_right (by linarith) hd
    linarith
  · intro hl
    rw [if_neg hl.ne] at e1 e2
    rw [← e1, ← e2]
    unfold centred
    refine ⟨by simp, ?_⟩
    rw [mul_div_assoc, div_self hd.ne']; norm_num
  · intro he
    rw [if_pos he] at e1 e2
    unfold centred
    have h3 : hi' - lo' = 2 * w := by rw [e1, e2, he]; ring
    have h4 : 2 * (arr lo k - lo') = 2 * w := by rw [e1]; ring
    rw [h3, h4, div_self (by linarith)]; norm_num

example : arr [(1 : ℝ), 2] 1 ≤ arr [(3 : ℝ), 2] 1 := by simp [arr]

end
end Alta
