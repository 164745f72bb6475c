import Verif.Spec.Generations
import Verif.Spec.Reciprocity
import Verif.Props.Brdf2BrdfFlow
/-
C93: files of non-linear functions written again and again by brdf2brdf.
-/
namespace Alta
noncomputable section

theorem blocks_inj (K : ℕ) : ∀ (n : ℕ) (f g : ℕ → List ℝ), (∀ i, (f i).length = K) → (∀ i, (g i).length = K) →
    blocks n f = blocks n g → ∀ i < n, f i = g i
  | 0, _, _, _, _, _, i, hi => absurd hi (by omega)
  | n + 1, f, g, hf, hg, h, i, hi => by
    rw [blocks_succ, blocks_succ] at h
    obtain ⟨h1, h2⟩ := List.append_inj' h (by rw [hf, hg])
    by_cases e : i = n
    · rw [e]; exact h2
    · exact blocks_inj K n f g hf hg h1 i (by omega)

theorem channelLines_congr (n : ℕ) (f g : ℕ → Str) (h : ∀ i < n, f i = g i) : channelLines n f = channelLines n g := by
  unfold channelLines
  congr 1
  simp only [List.flatMap]
  congr 1
  exact List.map_congr_left fun i hi => h i (List.mem_range.1 hi)

theorem line_printed {fmt : ℝ → Decimal} (hs : PrintsStably fmt) (k : Str) (v w : ℝ) (h : v = printed fmt w) :
    line fmt k v = line fmt k w := by
  subst h
  unfold line
  rw [show fmt (printed fmt w) = fmt w from hs w]

/-- What the parameters of an object say, when all of them are listed. -/
theorem take_blocks (n K m : ℕ) (f : ℕ → List ℝ) (h : ∀ i, (f i).length = K) (hm : m = K * n) : (blocks n f).take m = blocks n f :=
  List.take_of_length_le (by rw [blocks_length n K f fun i _ => h i, hm, Nat.mul_comm])

/-- The channels of two objects with two coefficients for each channel. -/
theorem two_lines {fmt : ℝ → Decimal} (hs : PrintsStably fmt) (n : ℕ) (k1 k2 : Str) (a b c d : ℕ → ℝ)
    (h : (blocks n fun i => [a i, b i]).take (2 * n) =
      (blocks n fun i => [printed fmt (c i), printed fmt (d i)]).take (2 * n)) (i : ℕ) (hi : i < n) :
    line fmt k1 (a i) ++ line fmt k2 (b i) = line fmt k1 (c i) ++ line fmt k2 (d i) := by
  rw [take_blocks n 2 _ _ (fun _ => rfl) rfl, take_blocks n 2 _ _ (fun _ => rfl) rfl] at h
  have := blocks_inj 2 n _ _ (fun _ => rfl) (fun _ => rfl) h i hi
  simp only [List.cons.injEq, and_true] at this
  rw [line_printed hs k1 _ _ this.1, line_printed hs k2 _ _ this.2]

theorem three_lines {fmt : ℝ → Decimal} (hs : PrintsStably fmt) (n : ℕ) (k1 k2 k3 : Str) (a b c a' b' c' : ℕ → ℝ)
    (h : (blocks n fun i => [a i, b i, c i]).take (3 * n) =
      (blocks n fun i => [printed fmt (a' i), printed fmt (b' i), printed fmt (c' i)]).take (3 * n)) (i : ℕ) (hi : i < n) :
    line fmt k1 (a i) ++ line fmt k2 (b i) ++ line fmt k3 (c i) =
      line fmt k1 (a' i) ++ line fmt k2 (b' i) ++ line fmt k3 (c' i) := by
  rw [take_blocks n 3 _ _ (fun _ => rfl) rfl, take_blocks n 3 _ _ (fun _ => rfl) rfl] at h
  have := blocks_inj 3 n _ _ (fun _ => rfl) (fun _ => rfl) h i hi
  simp only [List.cons.injEq, and_true] at this
  rw [line_printed hs k1 _ _ this.1, line_printed hs k2 _ _ this.2.1, line_printed hs k3 _ _ this.2.2]

theorem four_lines {fmt : ℝ → Decimal} (hs : PrintsStably fmt) (n : ℕ) (k1 k2 k3 k4 : Str) (a b c d a' b' c' d' : ℕ → ℝ)
    (h : (blocks n fun i => [a i, b i, c i, d i]).take (4 * n) =
      (blocks n fun i => [printed fmt (a' i), printed fmt (b' i), printed fmt (c' i), printed fmt (d' i)]).take (4 * n)) (i : ℕ)
    (hi : i < n) :
    line fmt k1 (a i) ++ line fmt k2 (b i) ++ line fmt k3 (c i) ++ line fmt k4 (d i) =
      line fmt k1 (a' i) ++ line fmt k2 (b' i) ++ line fmt k3 (c' i) ++ line fmt k4 (d' i) := by
  rw [take_blocks n 4 _ _ (fun _ => rfl) rfl, take_blocks n 4 _ _ (fun _ => rfl) rfl] at h
  have := blocks_inj 4 n _ _ (fun _ => rfl) (fun _ => rfl) h i hi
  simp only [List.cons.injEq, and_true] at this
  rw [line_printed hs k1 _ _ this.1, line_printed hs k2 _ _ this.2.1, line_printed hs k3 _ _ this.2.2.1,
    line_printed hs k4 _ _ this.2.2.2]

theorem one_line {fmt : ℝ → Decimal} (hs : PrintsStably fmt) (n : ℕ) (k : Str) (a b : ℕ → ℝ)
    (h : (List.range n).map a = (List.range n).map fun i => printed fmt (b i)) (i : ℕ) (hi : i < n) :
    line fmt k (a i) = line fmt k (b i) := by
  refine line_printed hs k _ _ ?_
  have := congrArg (·[i]?) h
  simpa [List.getElem?_range hi] using this

/-- An object with the parameters of the printed coefficients of another one is saved as this one. -/
theorem LobeObj.same_text {fmt : ℝ → Decimal} (hs : PrintsStably fmt) (l0 l l1 : LobeObj) (hr : l0.CanRead l)
    (hk : l0.Kept l1) (hd : 0 < l.toFn.par.dimY) (h : Fn.Same l1.toFn (l.rounded fmt).toFn) :
    l1.saveCall fmt = l.saveCall fmt ∧ l1.saveBody = l.saveBody := by
  obtain ⟨hk, -⟩ := hk
  obtain ⟨hp, hn, hg, hv⟩ := h
  cases l0 <;> cases l <;> simp only [LobeObj.CanRead] at hr <;> cases l1 <;>
    simp only [LobeObj.ctorIdx] at hk <;> (try omega) <;>
    refine ⟨?_, rfl⟩ <;>
    (try simp only [LobeObj.toFn, LobeObj.rounded, Fn.par, Fn.params, Fn.get, Fn.nb] at hp hn hg) 
  case blinn.blinn.blinn =>
    rename_i s t
    obtain ⟨q, a, b⟩ := t
    obtain rfl : q = s.par := hp
    exact congrArg (_ ++ ·) (channelLines_congr _ _ _ (two_lines hs _ _ _ _ _ _ _ hg))
  case retroblinn.retroblinn.retroblinn =>
    rename_i s t
    obtain ⟨q, a, b⟩ := t
    obtain rfl : q = s.par := hp
    exact congrArg (_ ++ ·) (channelLines_congr _ _ _ (two_lines hs _ _ _ _ _ _ _ hg))
  case beckmann.beckmann.beckmann =>
    rename_i s t
    obtain ⟨q, a, b⟩ := t
    obtain rfl : q = s.par := hp
    exact congrArg (_ ++ ·) (channelLines_congr _ _ _ (two_lines hs _ _ _ _ _ _ _ hg))
  case ward.ward.ward =>
    rename_i s t
    obtain ⟨q, a, b, c⟩ := t
    obtain rfl : q = s.par := hp
    exact congrArg (_ ++ ·) (channelLines_congr _ _ _ (three_lines hs _ _ _ _ _ _ _ _ _ _ hg))
  case abc.abc.abc =>
    rename_i s t
    obtain ⟨q, a, b, c⟩ := t
    obtain rfl : q = s.par := hp
    exact congrArg (_ ++ ·) (channelLines_congr _ _ _ (three_lines hs _ _ _ _ _ _ _ _ _ _ hg))
  case diffuse.diffuse.diffuse =>
    rename_i s t
    obtain ⟨q, a, b⟩ := t
    obtain rfl : q = s.par := hp
    have h0 : (List.range s.par.dimY).map a = (List.range s.par.dimY).map fun i => printed fmt (s.kd i) := by
      have := hv []
      simp only [LobeObj.toFn, LobeObj.rounded, Fn.value, diffuseCls, Option.some.injEq] at this
      exact this
    exact congrArg (_ ++ ·) (channelLines_congr _ _ _ (one_line hs _ _ _ _ h0))
  case sg.sg.sg =>
    rename_i s t
    obtain ⟨q, a, b, c, d⟩ := t
    obtain rfl : q = s.par := hp
    simp only [sgCls] at hn hg
    have hb : ∀ v w : ℕ → ℝ, (blocks s.par.dimY fun i => [v i, w i]).length = 2 * s.par.dimY := fun v w => by
      rw [blocks_length _ 2 _ fun _ _ => rfl, Nat.mul_comm]
    have hlines : (blocks s.par.dimY fun i => [a i, b i]) =
          (blocks s.par.dimY fun i => [printed fmt (s.ks i), printed fmt (s.n i)]) ∧
        ((d = .Moment ↔ s.type = .Moment) ∧ (d = .Moment → c = printed fmt s.a)) := by
      by_cases h1 : d = .Moment <;> by_cases h2 : s.type = .Moment <;> simp only [h1, h2, if_true, if_false] at hn hg
      · rw [List.take_of_length_le (by rw [List.length_append, hb]; rfl),
          List.take_of_length_le (by rw [List.length_append, hb]; rfl)] at hg
        obtain ⟨g1, g2⟩ := List.append_inj' hg rfl
        exact ⟨g1, by simp [h1, h2], fun _ => by simpa using g2⟩
      · omega
      · omega
      · rw [List.append_nil, List.append_nil, List.take_of_length_le (hb _ _).le, List.take_of_length_le (hb _ _).le] at hg
        exact ⟨hg, by simp [h1, h2], fun h => absurd h h1⟩
    obtain ⟨h1, h2, h3⟩ := hlines
    have hf := channelLines_congr s.par.dimY _ _ (two_lines hs s.par.dimY "Ks ".toList "N  ".toList a b s.ks s.n (by rw [h1]))
    unfold channelLines at hf
    have hf := List.append_cancel_right hf
    simp only [LobeObj.saveCall]
    rw [hf]
    congr 2
    by_cases hm : d = .Moment
    · rw [if_pos hm, if_pos (h2.1 hm), h3 hm, show fmt (printed fmt s.a) = fmt s.a from hs s.a]
    · rw [if_neg hm, if_neg fun h => hm (h2.2 h)]
  case isoLafortune.isoLafortune.isoLafortune =>
    rename_i s t
    obtain ⟨q, m, C, N⟩ := t
    obtain rfl : q = s.par := hp
    obtain rfl : m = s.n := by
      have h1 : 3 * m * s.par.dimY = 3 * s.n * s.par.dimY := hn
      have h2 : 0 < s.par.dimY := hd
      have := Nat.eq_of_mul_eq_mul_right h2 h1
      omega
    rw [isoLafortune_get, isoLafortune_get] at hg
    have hg := three_lines hs (s.n * s.par.dimY) "Cxy ".toList "Cz  ".toList "N   ".toList (fun k => C (k * 2 + 0))
      (fun k => C (k * 2 + 1)) N (fun k => s.C (k * 2 + 0)) (fun k => s.C (k * 2 + 1)) s.N (by
        rw [show 3 * (s.n * s.par.dimY) = 3 * s.n * s.par.dimY by ring]; exact hg)
    simp only [LobeObj.saveCall]
    congr 1
    simp only [List.flatMap]
    congr 1
    refine List.map_congr_left fun k hk => channelLines_congr _ _ _ fun i hi => hg _ ?_
    have hk := List.mem_range.1 hk
    calc k * s.par.dimY + i < (k + 1) * s.par.dimY := by rw [Nat.add_mul, Nat.one_mul]; omega
      _ ≤ s.n * s.par.dimY := Nat.mul_le_mul_right _ hk
  case lafortune.lafortune.lafortune =>
    rename_i s t
    obtain ⟨q, m, C, N, kd⟩ := t
    obtain rfl : q = s.par := hp
    obtain rfl : m = s.n := by
      have h1 : 4 * m * s.par.dimY = 4 * s.n * s.par.dimY := hn
      have h2 : 0 < s.par.dimY := hd
      have := Nat.eq_of_mul_eq_mul_right h2 h1
      omega
    rw [lafortune_get, lafortune_get] at hg
    have hg := four_lines hs (s.n * s.par.dimY) "Cx ".toList "Cx ".toList "Cz ".toList "N  ".toList (fun k => C (k * 3 + 0))
      (fun k => C (k * 3 + 1)) (fun k => C (k * 3 + 2)) N (fun k => s.C (k * 3 + 0)) (fun k => s.C (k * 3 + 1))
      (fun k => s.C (k * 3 + 2)) s.N (by
        rw [show 4 * (s.n * s.par.dimY) = 4 * s.n * s.par.dimY by ring]; exact hg)
    simp only [LobeObj.saveCall]
    congr 1
    simp only [List.flatMap]
    congr 1
    refine List.map_congr_left fun k hk => channelLines_congr _ _ _ fun i hi => hg _ ?_
    have hk := List.mem_range.1 hk
    calc k * s.par.dimY + i < (k + 1) * s.par.dimY := by rw [Nat.add_mul, Nat.one_mul]; omega
      _ ≤ s.n * s.par.dimY := Nat.mul_le_mul_right _ hk
  case schlickFresnel.schlickFresnel.schlickFresnel =>
    rename_i s t
    obtain ⟨q, a⟩ := t
    obtain rfl : q = s.par := hp
    rw [List.take_of_length_le, List.take_of_length_le] at hg
    · exact congrArg (_ ++ ·) (channelLines_congr _ _ _ (one_line hs _ _ _ _ hg))
    · exact (List.length_map _ |>.trans List.length_range).le
    · exact (List.length_map _ |>.trans List.length_range).le
  case normalizedSchlick.normalizedSchlick.normalizedSchlick =>
    rename_i s t
    obtain ⟨q, a⟩ := t
    obtain rfl : q = s.par := hp
    rw [List.take_of_length_le, List.take_of_length_le] at hg
    · exact congrArg (_ ++ ·) (channelLines_congr _ _ _ (one_line hs _ _ _ _ hg))
    · exact (List.length_map _ |>.trans List.length_range).le
    · exact (List.length_map _ |>.trans List.length_range).le
  case retroSchlick.retroSchlick.retroSchlick =>
    rename_i s t
    obtain ⟨q, a⟩ := t
    obtain rfl : q = s.par := hp
    rw [List.take_of_length_le, List.take_of_length_le] at hg
    · exact congrArg (_ ++ ·) (channelLines_congr _ _ _ (one_line hs _ _ _ _ hg))
    · exact (List.length_map _ |>.trans List.length_range).le
    · exact (List.length_map _ |>.trans List.length_range).le
  case schlickMasking.schlickMasking.schlickMasking =>
    rename_i s t
    obtain ⟨q, a⟩ := t
    obtain rfl : q = s.par := hp
    rw [List.take_of_length_le, List.take_of_length_le] at hg
    · exact congrArg (_ ++ ·) (channelLines_congr _ _ _ (one_line hs _ _ _ _ hg))
    · exact (List.length_map _ |>.trans List.length_range).le
    · exact (List.length_map _ |>.trans List.length_range).le
  case smith.smith.smith =>
    rename_i s t
    obtain ⟨q, a⟩ := t
    obtain rfl : q = s.par := hp
    rw [List.take_of_length_le, List.take_of_length_le] at hg
    · exact congrArg (_ ++ ·) (channelLines_congr _ _ _ (one_line hs _ _ _ _ hg))
    · exact (List.length_map _ |>.trans List.length_range).le
    · exact (List.length_map _ |>.trans List.length_range).le
  case walterSmith.walterSmith.walterSmith =>
    rename_i s t
    obtain ⟨q, a⟩ := t
    obtain rfl : q = s.par := hp
    rw [List.take_of_length_le, List.take_of_length_le] at hg
    · exact congrArg (_ ++ ·) (channelLines_congr _ _ _ (one_line hs _ _ _ _ hg))
    · exact (List.length_map _ |>.trans List.length_range).le
    · exact (List.length_map _ |>.trans List.length_range).le

mutual
/-- The same for sums and products. -/
theorem FT.same_text {fmt : ℝ → Decimal} (hs : PrintsStably fmt) : ∀ (f0 f f1 : FT LobeObj), f0.CanRead f → f0.Kept f1 →
    f.AllObjects (fun l => 0 < l.toFn.par.dimY) → f1.LeafSame (f.rounded fmt) →
    f1.saveCall fmt = f.saveCall fmt ∧ f1.saveBody = f.saveBody
  | .leaf l0, .leaf l, .leaf l1, hr, hk, hd, h => by
    simp only [FT.CanRead, FT.Kept, FT.AllObjects, FT.rounded, FT.LeafSame] at hr hk hd h
    exact LobeObj.same_text hs l0 l l1 hr hk hd h
  | .compound p0 fs0, .compound p fs, .compound p1 fs1, hr, hk, hd, h => by
    simp only [FT.CanRead, FT.Kept, FT.AllObjects, FT.rounded, FT.LeafSame] at hr hk hd h
    exact FTs.same_text hs fs0 fs fs1 hr.2.2 hk.2 hd h.2
  | .product p0 f0 g0 a0 b0, .product p f g a b, .product p1 f1 g1 a1 b1, hr, hk, hd, h => by
    simp only [FT.CanRead, FT.Kept, FT.AllObjects, FT.rounded, FT.LeafSame] at hr hk hd h
    obtain ⟨e1, e2⟩ := FT.same_text hs f0 f f1 hr.2.2.2.1 hk.2.2.2.1 hd.1 h.2.2.2.1
    obtain ⟨e3, e4⟩ := FT.same_text hs g0 g g1 hr.2.2.2.2 hk.2.2.2.2 hd.2 h.2.2.2.2
    simp only [FT.saveCall, FT.saveBody, e1, e2, e3, e4, and_self]
  | .leaf _, .compound _ _, _, hr, _, _, _ => by simp only [FT.CanRead] at hr
  | .leaf _, .product _ _ _ _ _, _, hr, _, _, _ => by simp only [FT.CanRead] at hr
  | .compound _ _, .leaf _, _, hr, _, _, _ => by simp only [FT.CanRead] at hr
  | .compound _ _, .product _ _ _ _ _, _, hr, _, _, _ => by simp only [FT.CanRead] at hr
  | .product _ _ _ _ _, .leaf _, _, hr, _, _, _ => by simp only [FT.CanRead] at hr
  | .product _ _ _ _ _, .compound _ _, _, hr, _, _, _ => by simp only [FT.CanRead] at hr
  | .leaf _, .leaf _, .compound _ _, _, hk, _, _ => by simp only [FT.Kept] at hk
  | .leaf _, .leaf _, .product _ _ _ _ _, _, hk, _, _ => by simp only [FT.Kept] at hk
  | .compound _ _, .compound _ _, .leaf _, _, hk, _, _ => by simp only [FT.Kept] at hk
  | .compound _ _, .compound _ _, .product _ _ _ _ _, _, hk, _, _ => by simp only [FT.Kept] at hk
  | .product _ _ _ _ _, .product _ _ _ _ _, .leaf _, _, hk, _, _ => by simp only [FT.Kept] at hk
  | .product _ _ _ _ _, .product _ _ _ _ _, .compound _ _, _, hk, _, _ => by simp only [FT.Kept] at hk
theorem FTs.same_text {fmt : ℝ → Decimal} (hs : PrintsStably fmt) : ∀ (f0 f f1 : FTs LobeObj), f0.CanRead f → f0.Kept f1 →
    f.AllObjects (fun l => 0 < l.toFn.par.dimY) → f1.LeafSame (f.rounded fmt) →
    f1.saveCall fmt = f.saveCall fmt ∧ f1.saveBody = f.saveBody
  | .nil, .nil, .nil, _, _, _, _ => ⟨rfl, rfl⟩
  | .cons a0 f0 r0, .cons a f r, .cons a1 f1 r1, hr, hk, hd, h => by
    simp only [FTs.CanRead, FTs.Kept, FTs.AllObjects, FTs.rounded, FTs.LeafSame] at hr hk hd h
    obtain ⟨e1, e2⟩ := FT.same_text hs f0 f f1 hr.2.1 hk.2.1 hd.1 h.2.1
    obtain ⟨e3, e4⟩ := FTs.same_text hs r0 r r1 hr.2.2 hk.2.2 hd.2 h.2.2
    simp only [FTs.saveCall, FTs.saveBody, e1, e2, e3, e4, and_self]
  | .nil, .cons _ _ _, _, hr, _, _, _ => by simp only [FTs.CanRead] at hr
  | .cons _ _ _, .nil, _, hr, _, _, _ => by simp only [FTs.CanRead] at hr
  | .nil, .nil, .cons _ _ _, _, hk, _, _ => by simp only [FTs.Kept] at hk
  | .cons _ _ _, .cons _ _ _, .nil, _, hk, _, _ => by simp only [FTs.Kept] at hk
end

mutual
theorem FT.withOutput_saveBody (o : Output) : ∀ f : FT LobeObj, (f.withOutput o).saveBody = f.saveBody
  | .leaf l => by simp only [FT.withOutput, FT.saveBody, LobeObj.withOutput_saveBody]
  | .compound _ fs => by simp only [FT.withOutput, FT.saveBody, FTs.withOutput_saveBody o fs]
  | .product _ f g _ _ => by
    simp only [FT.withOutput, FT.saveBody, FT.withOutput_saveBody o f, FT.withOutput_saveBody o g]
theorem FTs.withOutput_saveBody (o : Output) : ∀ f : FTs LobeObj, (f.withOutput o).saveBody = f.saveBody
  | .nil => rfl
  | .cons _ f r => by
    simp only [FTs.withOutput, FTs.saveBody, FT.withOutput_saveBody o f, FTs.withOutput_saveBody o r]
end

mutual
theorem FT.withOutput_channels (o : Output) : ∀ f : FT LobeObj, f.AllObjects (fun l => 0 < l.toFn.par.dimY) →
    (f.withOutput o).AllObjects (fun l => 0 < l.toFn.par.dimY)
  | .leaf l, h => by
    simp only [FT.withOutput, FT.AllObjects, LobeObj.withOutput_toFn_par] at h ⊢
    exact h
  | .compound _ fs, h => by
    simp only [FT.withOutput, FT.AllObjects] at h ⊢
    exact FTs.withOutput_channels o fs h
  | .product _ f g _ _, h => by
    simp only [FT.withOutput, FT.AllObjects] at h ⊢
    exact ⟨FT.withOutput_channels o f h.1, FT.withOutput_channels o g h.2⟩
theorem FTs.withOutput_channels (o : Output) : ∀ f : FTs LobeObj, f.AllObjects (fun l => 0 < l.toFn.par.dimY) →
    (f.withOutput o).AllObjects (fun l => 0 < l.toFn.par.dimY)
  | .nil, _ => trivial
  | .cons _ f r, h => by
    simp only [FTs.withOutput, FTs.AllObjects] at h ⊢
    exact ⟨FT.withOutput_channels o f h.1, FTs.withOutput_channels o r h.2⟩
end

theorem FT.rounded_par (fmt : ℝ → Decimal) (f : FT LobeObj) : (f.rounded fmt).toFn.par = f.toFn.par := by
  cases f with
  | leaf l => cases l <;> rfl
  | compound p fs => rfl
  | product p f g a b => rfl

/-- What is loaded from a function that was saved, at its objects. -/
theorem loadFunction_leaves (fmt : ℝ → Decimal) (hf : PrintsDigits fmt) (dir : Str) (env : Option Str)
    (fs : Str → Option (Symbols (Provider LobeObj))) (args : SMap) (ho : args.Ordered) (ha : CmdMap args)
    (f f0 : FT LobeObj) (hin : (f.par LobeObj.par).input.Named)
    (hmake : getFunction dir env fs LobeObj.par args ((f.par LobeObj.par).withOutput .UNKNOWN_OUTPUT) =
      some (.nonlinear f0))
    (hread : f0.CanRead (f.withOutput .UNKNOWN_OUTPUT)) :
    ∃ f1, loadFunction dir env fs (savedText fmt args f) = some (some f1) ∧ f0.Kept f1 ∧
      f1.LeafSame ((f.withOutput .UNKNOWN_OUTPUT).rounded fmt) := by
  obtain ⟨l2, m, h1, h2, h3, h4, h5, h6⟩ := header_saved args ho ha (f.par LobeObj.par)
    (f.saveBody ++ (f.saveCall fmt ++ ['\n'])) hin
  have e : savedText fmt args f =
      saveHeader args.getCmd (f.par LobeObj.par) ++ (f.saveBody ++ (f.saveCall fmt ++ ['\n'])) := by
    simp only [savedText, List.append_assoc]
  obtain ⟨f1, ws', _, hl, hs⟩ := FT.load_saved fmt hf f0 (f.withOutput .UNKNOWN_OUTPUT) hread
    ('\n' :: f.saveBody) ['\n'] (newlines_one.skippable.append f.saveBody_skippable)
  rw [FT.withOutput_saveCall] at hl
  have hp : (⟨((f.par LobeObj.par).dimX : ℤ).toNat, ((f.par LobeObj.par).dimY : ℤ).toNat,
      (f.par LobeObj.par).input, .UNKNOWN_OUTPUT⟩ : Par) = (f.par LobeObj.par).withOutput .UNKNOWN_OUTPUT := by
    simp [Par.withOutput]
  have hload : loadFunction dir env fs (savedText fmt args f) = some (some f1) := by
    unfold loadFunction
    rw [e]
    simp only [h1, h2, h3, h4, h5, h6, hp, hmake, ne_eq, not_true_eq_false, if_false]
    rw [List.cons_append] at hl
    simp only [hl, if_true]
  exact ⟨f1, hload, loadFunction_saved_kept fmt dir env fs args ho ha f f0 f1 hin hmake hload, hs⟩

/-- One run of `brdf2brdf` on the file of a function: the file is written again with the same numbers, and the options of this
    run. -/
theorem reexport_function (fmt10 fmt : ℝ → Decimal) (hp : PrintsDigits fmt10) (hs : PrintsStably fmt10)
    (other : AnyFn → SMap → Option Str) (dir : Str) (env : Option Str) (fs : Str → Option (Symbols (Provider LobeObj)))
    (args args0 : SMap) (hr : Reexports args) (hx : args.isDefined kExport = false)
    (ho0 : args0.Ordered) (ha0 : CmdMap args0) (f f0 : FT LobeObj) (hin : (f.par LobeObj.par).input.Named)
    (hmake : getFunction dir env fs LobeObj.par args0 ((f.par LobeObj.par).withOutput .UNKNOWN_OUTPUT) =
      some (.nonlinear f0))
    (hread : f0.CanRead (f.withOutput .UNKNOWN_OUTPUT)) (hd : f.AllObjects fun l => 0 < l.toFn.par.dimY) (t' : Str)
    (run : ReexportsTo fmt10 fmt other dir env fs args (savedText fmt10 args0 f) t') : t' = savedText fmt10 args f := by
  obtain ⟨junk, files, hfile, run⟩ := run
  obtain ⟨f1, hload, hk, hl⟩ := loadFunction_leaves fmt10 hp dir env fs args0 ho0 ha0 f f0 hin hmake hread
  obtain ⟨e1, e2⟩ := FT.same_text hs f0 (f.withOutput .UNKNOWN_OUTPUT) f1 hread hk (FT.withOutput_channels _ f hd) hl
  rw [FT.withOutput_saveCall] at e1
  rw [FT.withOutput_saveBody] at e2
  have hpar : f1.par LobeObj.par = (f.par LobeObj.par).withOutput .UNKNOWN_OUTPUT := by
    rw [← FT.toFn_par, ← FT.toFn_par, (FT.same_of_leaves _ _ hl).1, FT.rounded_par, (FT.withOutput_same _ f).1]
  have hsv : saveHeader args.getCmd (f1.par LobeObj.par) = saveHeader args.getCmd (f.par LobeObj.par) := by
    rw [hpar]; rfl
  rw [brdf2brdf_run junk fmt10 fmt other dir env fs files args hr _ hfile _ (loadAny_nonlinear junk dir env fs _ _ hload)] at run
  simp only [AnyFn.save, hx, if_true, AnyFn.altaText, AnyFn.par] at run
  split at run
  · have := Option.some.inj (Prod.mk.inj (Option.some.inj run)).2
    rw [← this]
    simp only [savedText, hsv, e1, e2, List.append_assoc]
  · cases run

/-- **C93.**  The file of a function (of any shape) that is written again and again by `brdf2brdf`, each time with the description
    `--func` of the function: whatever the number of runs, the file holds the numbers of the first file, printed in the same way;
    with the options of the first file, it is the first file. -/
theorem function_generations (fmt10 fmt : ℝ → Decimal) (hp : PrintsDigits fmt10) (hs : PrintsStably fmt10)
    (other : AnyFn → SMap → Option Str) (dir : Str) (env : Option Str) (fs : Str → Option (Symbols (Provider LobeObj)))
    (f : FT LobeObj) (hin : (f.par LobeObj.par).input.Named) (hd : f.AllObjects fun l => 0 < l.toFn.par.dimY)
    -- the options of the runs: each of them describes a function that can read the file of `f`
    (args : ℕ → SMap) (ho : ∀ n, (args n).Ordered) (ha : ∀ n, CmdMap (args n)) (hr : ∀ n, Reexports (args n))
    (hx : ∀ n, (args n).isDefined kExport = false)
    (hmake : ∀ n, ∃ f0, getFunction dir env fs LobeObj.par (args n) ((f.par LobeObj.par).withOutput .UNKNOWN_OUTPUT) =
      some (.nonlinear f0) ∧ f0.CanRead (f.withOutput .UNKNOWN_OUTPUT))
    -- the history
    (file : ℕ → Str) (h0 : file 0 = savedText fmt10 (args 0) f)
    (runs : ∀ n, ReexportsTo fmt10 fmt other dir env fs (args (n + 1)) (file n) (file (n + 1))) (n : ℕ) :
    file n = savedText fmt10 (args n) f ∧ (args n = args 0 → file n = file 0) := by
  have h : file n = savedText fmt10 (args n) f := by
    induction n with
    | zero => exact h0
    | succ n ih =>
      obtain ⟨f0, h1, h2⟩ := hmake n
      have rn := runs n
      rw [ih] at rn
      exact reexport_function fmt10 fmt hp hs other dir env fs (args (n + 1)) (args n) (hr _) (hx _) (ho n) (ha n) f f0 hin h1 h2
        hd _ rn
  exact ⟨h, fun e => by rw [h, h0, e]⟩

end
end Alta
