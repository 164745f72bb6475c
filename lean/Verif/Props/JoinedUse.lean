import Verif.Props.JoinedText
import Verif.Props.QuadprogFit
import Verif.Props.Distance
/-
C94, what is computed from data files that are joined, or whose samples are in another order.
-/
namespace Alta
noncomputable section

theorem samples_rows (d : Segments) : d.store.toData.rows = d.samples.map fun s => s.1.getD [] := by
  simp [Segments.samples, Store.toData, List.map_map, Function.comp_def]

/-- The same samples, in another order. -/
structure Reordered (d e : Segments) : Prop where
  layout : SameLayout e d
  samples : d.samples.Perm e.samples
  min : e.min = d.min
  max : e.max = d.max

theorem Reordered.rows {d e : Segments} (h : Reordered d e) : d.store.toData.rows.Perm e.store.toData.rows := by
  rw [samples_rows, samples_rows]
  exact h.samples.map _

/-! ### Distances -/

theorem mapM_perm {α β : Type} (f : α → Option β) {l l' : List α} (h : l.Perm l') :
    (l.mapM f = none ∧ l'.mapM f = none) ∨ ∃ r r', l.mapM f = some r ∧ l'.mapM f = some r' ∧ r.Perm r' := by
  induction h with
  | nil => exact .inr ⟨[], [], rfl, rfl, .refl _⟩
  | @cons x l l' _ ih =>
    rw [List.mapM_cons, List.mapM_cons]
    cases hx : f x with
    | none => exact .inl ⟨rfl, rfl⟩
    | some v =>
      rcases ih with ⟨h1, h2⟩ | ⟨r, r', h1, h2, h3⟩
      · rw [h1, h2]; exact .inl ⟨rfl, rfl⟩
      · rw [h1, h2]; exact .inr ⟨_, _, rfl, rfl, h3.cons v⟩
  | swap x y l =>
    rw [List.mapM_cons, List.mapM_cons, List.mapM_cons, List.mapM_cons]
    cases hx : f x with
    | none =>
      cases hy : f y with
      | none => exact .inl ⟨rfl, rfl⟩
      | some w => exact .inl ⟨rfl, rfl⟩
    | some v =>
      cases hy : f y with
      | none => exact .inl ⟨rfl, rfl⟩
      | some w =>
        cases hl : l.mapM f with
        | none => exact .inl ⟨rfl, rfl⟩
        | some r => exact .inr ⟨_, _, rfl, rfl, .swap _ _ _⟩
  | trans _ _ ih1 ih2 =>
    rcases ih1 with ⟨h1, h2⟩ | ⟨r, r', h1, h2, h3⟩
    · rcases ih2 with ⟨h4, h5⟩ | ⟨s, s', h4, h5, h6⟩
      · exact .inl ⟨h1, h5⟩
      · rw [h2] at h4; cases h4
    · rcases ih2 with ⟨h4, h5⟩ | ⟨s, s', h4, h5, h6⟩
      · rw [h2] at h4; cases h4
      · rw [h2] at h4
        obtain rfl := Option.some.inj h4
        exact .inr ⟨_, _, h1, h5, h3.trans h6⟩

theorem mapM_append' {α β : Type} (f : α → Option β) : ∀ l l' : List α,
    (l ++ l').mapM f = (l.mapM f).bind fun a => (l'.mapM f).map fun b => a ++ b
  | [], l' => by cases h : l'.mapM f <;> simp [h]
  | x :: l, l' => by
    rw [List.cons_append, List.mapM_cons, List.mapM_cons, mapM_append' f l l']
    cases f x with
    | none => rfl
    | some v =>
      cases l.mapM f with
      | none => rfl
      | some a =>
        cases l'.mapM f with
        | none => rfl
        | some b => rfl

theorem foldlM_sum {α : Type} (F : α → Option (List ℝ)) (w : List ℝ → ℝ) : ∀ (l : List α) (s : ℝ),
    l.foldlM (fun (s : ℝ) x => (F x).map fun e => s + w e) s = (l.mapM F).map fun es => s + (es.map w).sum
  | [], s => by simp
  | x :: l, s => by
    rw [List.foldlM_cons, List.mapM_cons]
    cases hx : F x with
    | none => rfl
    | some v =>
      simp only [Option.map_some, Option.bind_eq_bind, Option.bind_some]
      rw [foldlM_sum F w l]
      cases l.mapM F with
      | none => rfl
      | some es => simp [add_assoc]

/-- The errors of the samples. -/
def sampleErrorsOf (g : Evaluable) (d : Data) : Option (List (List ℝ)) := d.rows.mapM (sampleError g d)

theorem l2Distance_errors (g : Evaluable) (d : Data) : l2Distance g d = (sampleErrorsOf g d).bind fun es =>
    if es.length = 0 then none else some (Real.sqrt ((es.map fun e => vecNorm e ^ 2).sum / es.length)) := by
  unfold l2Distance sampleErrorsOf
  rw [foldlM_sum (sampleError g d) (fun e => vecNorm e ^ 2) d.rows 0]
  cases h : d.rows.mapM (sampleError g d) with
  | none => rfl
  | some es =>
    have hl : es.length = d.rows.length := by
      have : ∀ (l : List (List ℝ)) (r : List (List ℝ)), l.mapM (sampleError g d) = some r → r.length = l.length := by
        intro l
        induction l with
        | nil => intro r hr; simp only [List.mapM_nil, Option.pure_def, Option.some.injEq] at hr; subst hr; rfl
        | cons a l ih =>
          intro r hr
          rw [List.mapM_cons] at hr
          cases ha : sampleError g d a with
          | none => rw [ha] at hr; cases hr
          | some v =>
            cases hm : l.mapM (sampleError g d) with
            | none => rw [ha, hm] at hr; cases hr
            | some w =>
              rw [ha, hm] at hr
              simp only [Option.pure_def, Option.bind_eq_bind, Option.bind_some, Option.some.injEq] at hr
              subst hr
              rw [List.length_cons, List.length_cons, ih w hm]
      exact this _ _ h
    simp only [Option.map_some, Option.bind_some, hl, zero_add]

theorem sampleError_layout {d e : Segments} (h : SameLayout e d) (g : Evaluable) :
    sampleError g e.store.toData = sampleError g d.store.toData := by
  obtain ⟨h1, -, h3, -⟩ := h
  funext row
  unfold sampleError distancePoint
  simp only [Store.toData, h1, h3]

/-- **C94.**  The L2 distance of a function to the data does not depend on the order of the samples. -/
theorem l2_reordered {d e : Segments} (h : Reordered d e) (g : Evaluable) :
    l2Distance g e.store.toData = l2Distance g d.store.toData := by
  rw [l2Distance_errors, l2Distance_errors]
  unfold sampleErrorsOf
  rw [sampleError_layout h.layout]
  rcases mapM_perm (sampleError g d.store.toData) h.rows with ⟨h1, h2⟩ | ⟨r, r', h1, h2, h3⟩
  · rw [h1, h2]
  · rw [h1, h2]
    simp only [Option.bind_some, h3.length_eq, (h3.map fun e => vecNorm e ^ 2).sum_eq]

theorem maxError_max (e : List ℝ) : ∀ m : ℝ, maxError m e = max m (maxError m e) := by
  unfold maxError
  induction e with
  | nil => intro m; simp
  | cons x e ih =>
    intro m
    rw [List.foldl_cons, ih]
    rw [← max_assoc, ← max_assoc, max_self]

theorem maxError_pull (e : List ℝ) : ∀ m n : ℝ, maxError (max m n) e = max m (maxError n e) := by
  unfold maxError
  induction e with
  | nil => intro m n; rfl
  | cons x e ih => intro m n; rw [List.foldl_cons, List.foldl_cons, max_assoc, ih]

theorem maxError_comm (m : ℝ) (a b : List ℝ) : maxError (maxError m a) b = maxError (maxError m b) a := by
  have key : ∀ (e f : List ℝ) (m : ℝ), maxError (maxError m e) f = max (maxError m e) (maxError m f) := by
    intro e f m
    have : maxError m e = max (maxError m e) m := by rw [max_comm]; exact maxError_max e m
    conv_lhs => rw [this, maxError_pull]
  rw [key, key, max_comm]

theorem maxErrors_pull : ∀ (es : List (List ℝ)) (m n : ℝ), es.foldl maxError (max m n) = max m (es.foldl maxError n)
  | [], m, n => rfl
  | e :: es, m, n => by rw [List.foldl_cons, List.foldl_cons, maxError_pull, maxErrors_pull es]

/-- **C94.**  Nor do the L-infinity distance, and the mean and the variance of the errors. -/
theorem linf_reordered {d e : Segments} (h : Reordered d e) (g : Evaluable) :
    linfDistance g e.store.toData = linfDistance g d.store.toData := by
  unfold linfDistance
  have hl := h.rows.length_eq
  have hy : e.store.toData.dimY = d.store.toData.dimY := h.layout.2.1
  rw [← hl, hy, sampleError_layout h.layout]
  split
  · rfl
  rcases mapM_perm (sampleError g d.store.toData) h.rows with ⟨h1, h2⟩ | ⟨r, r', h1, h2, h3⟩
  · rw [h1, h2]
  · rw [h1, h2]
    have hm : ∀ m : ℝ, r'.foldl maxError m = r.foldl maxError m := fun m =>
      (h3.foldl_eq' (fun x _ y _ z => maxError_comm z x y) m).symm
    have hs : ∀ (w : List ℝ → ℝ), r'.foldl (fun (m : ℝ) e => m + w e) 0 = r.foldl (fun (m : ℝ) e => m + w e) 0 := fun w =>
      (h3.foldl_eq' (fun x _ y _ z => by ring) 0).symm
    simp only [hm, h3.length_eq.symm, hs fun e => arr e _ / (r.length : ℝ)]
    simp only [hs fun e => (_ - -(arr e _)) ^ 2 / (r.length : ℝ)]

/-- **C94.**  The distances to two files that are joined: the squares of the L2 distances add, weighted by the numbers of
    samples. -/
theorem l2_joined {d e j : Segments} (h1 : SameLayout j d) (h2 : SameLayout e d) (hj : j.samples = d.samples ++ e.samples)
    (g : Evaluable) (a b : ℝ) (ha : l2Distance g d.store.toData = some a) (hb : l2Distance g e.store.toData = some b) :
    ∃ c, l2Distance g j.store.toData = some c ∧
      c ^ 2 * ((d.samples.length : ℝ) + e.samples.length) = a ^ 2 * d.samples.length + b ^ 2 * e.samples.length := by
  have hlen : ∀ (f : List ℝ → Option (List ℝ)) (l r : List (List ℝ)), l.mapM f = some r → r.length = l.length := by
    intro f l
    induction l with
    | nil => intro r hr; simp only [List.mapM_nil, Option.pure_def, Option.some.injEq] at hr; subst hr; rfl
    | cons a l ih =>
      intro r hr
      rw [List.mapM_cons] at hr
      cases ha : f a with
      | none => rw [ha] at hr; cases hr
      | some v =>
        cases hm : l.mapM f with
        | none => rw [ha, hm] at hr; cases hr
        | some w =>
          rw [ha, hm] at hr
          simp only [Option.pure_def, Option.bind_eq_bind, Option.bind_some, Option.some.injEq] at hr
          subst hr
          rw [List.length_cons, List.length_cons, ih w hm]
  have hsum : ∀ es : List (List ℝ), 0 ≤ (es.map fun e => vecNorm e ^ 2).sum := by
    intro es
    apply List.sum_nonneg
    intro x hx
    obtain ⟨e, -, rfl⟩ := List.mem_map.1 hx
    positivity
  rw [l2Distance_errors] at ha hb ⊢
  unfold sampleErrorsOf at ha hb ⊢
  rw [sampleError_layout h2] at hb
  rw [sampleError_layout h1]
  have hrows : j.store.toData.rows = d.store.toData.rows ++ e.store.toData.rows := by
    rw [samples_rows, samples_rows, samples_rows, hj, List.map_append]
  rw [hrows, mapM_append']
  cases hd : d.store.toData.rows.mapM (sampleError g d.store.toData) with
  | none => rw [hd] at ha; cases ha
  | some es =>
    cases he : e.store.toData.rows.mapM (sampleError g d.store.toData) with
    | none => rw [he] at hb; cases hb
    | some fs =>
      have l1 := hlen _ _ _ hd
      have l2 := hlen _ _ _ he
      rw [samples_rows, List.length_map] at l1 l2
      rw [hd, Option.bind_some] at ha
      rw [he, Option.bind_some] at hb
      rw [Option.bind_some, Option.map_some, Option.bind_some]
      split at ha
      · cases ha
      rename_i n1
      split at hb
      · cases hb
      rename_i n2
      rw [if_neg (by rw [List.length_append]; omega)]
      refine ⟨_, rfl, ?_⟩
      obtain rfl := Option.some.inj ha
      obtain rfl := Option.some.inj hb
      have p1 : (0 : ℝ) < es.length := by exact_mod_cast Nat.pos_of_ne_zero n1
      have p2 : (0 : ℝ) < fs.length := by exact_mod_cast Nat.pos_of_ne_zero n2
      rw [← l1, ← l2, Real.sq_sqrt (div_nonneg (hsum _) (Nat.cast_nonneg _)), Real.sq_sqrt (div_nonneg (hsum _) p1.le),
        Real.sq_sqrt (div_nonneg (hsum _) p2.le), List.map_append, List.sum_append, List.length_append, Nat.cast_add]
      field_simp

/-- **C94.**  and the L-infinity distance is the greatest of the two. -/
theorem linf_joined {d e j : Segments} (h1 : SameLayout j d) (h2 : SameLayout e d) (hj : j.samples = d.samples ++ e.samples)
    (g : Evaluable) (a b : ℝ) (ma va mb vb : List ℝ) (ha : linfDistance g d.store.toData = some (a, ma, va))
    (hb : linfDistance g e.store.toData = some (b, mb, vb)) :
    ∃ m v, linfDistance g j.store.toData = some (max a b, m, v) := by
  have hrows : j.store.toData.rows = d.store.toData.rows ++ e.store.toData.rows := by
    rw [samples_rows, samples_rows, samples_rows, hj, List.map_append]
  have hy : e.store.toData.dimY = d.store.toData.dimY := h2.2.1
  have hy' : j.store.toData.dimY = d.store.toData.dimY := h1.2.1
  unfold linfDistance at ha hb ⊢
  rw [sampleError_layout h2, hy] at hb
  rw [sampleError_layout h1, hy', hrows, mapM_append']
  split at ha
  · cases ha
  rename_i c1
  split at hb
  · cases hb
  rename_i c2
  rw [if_neg (by rw [List.length_append]; intro h; by_cases hz : d.store.toData.rows.length = 0
                 · exact c2 ⟨by omega, h.2⟩
                 · exact c1 ⟨hz, h.2⟩)]
  cases hd : d.store.toData.rows.mapM (sampleError g d.store.toData) with
  | none => rw [hd] at ha; cases ha
  | some es =>
    cases he : e.store.toData.rows.mapM (sampleError g d.store.toData) with
    | none => rw [he] at hb; cases hb
    | some fs =>
      rw [hd] at ha
      rw [he] at hb
      simp only [Option.some.injEq, Prod.mk.injEq] at ha hb
      rw [Option.bind_some, Option.map_some]
      refine ⟨_, _, congrArg some (Prod.ext ?_ rfl)⟩
      simp only
      rw [List.foldl_append, ← ha.1, ← hb.1]
      have : es.foldl maxError 0 = max (es.foldl maxError 0) 0 := by
        have := maxErrors_pull es 0 0
        rw [max_self] at this
        rw [max_comm]
        exact this
      conv_lhs => rw [this]
      exact maxErrors_pull fs _ 0

/-! ### Fits by quadratic programming -/

theorem mem_samples (d : Segments) (t : List ℝ × List ℝ × List ℝ) :
    (∃ i, d.store.getSegment i = some t) ↔ ∃ s ∈ d.samples, s.2 = some t := by
  constructor
  · rintro ⟨i, hi⟩
    exact ⟨_, List.mem_map_of_mem (List.mem_range.2 (getSegment_lt _ _ _ hi)), hi⟩
  · rintro ⟨s, hs, ht⟩
    obtain ⟨i, -, rfl⟩ := List.mem_map.1 hs
    exact ⟨i, ht⟩

theorem Reordered.segments {d e : Segments} (h : Reordered d e) (t : List ℝ × List ℝ × List ℝ) :
    (∃ i, e.store.getSegment i = some t) ↔ ∃ i, d.store.getSegment i = some t := by
  rw [mem_samples, mem_samples]
  constructor
  · rintro ⟨s, hs, ht⟩; exact ⟨s, h.samples.mem_iff.2 hs, ht⟩
  · rintro ⟨s, hs, ht⟩; exact ⟨s, h.samples.mem_iff.1 hs, ht⟩

theorem forall_segments (d e : Store ℝ) (h : ∀ t, (∃ i, e.getSegment i = some t) ↔ ∃ i, d.getSegment i = some t)
    (P : List ℝ → List ℝ → List ℝ → Prop) :
    (∀ i x yl yu, e.getSegment i = some (x, yl, yu) → P x yl yu) ↔
      ∀ i x yl yu, d.getSegment i = some (x, yl, yu) → P x yl yu := by
  constructor
  · intro H i x yl yu hi
    obtain ⟨k, hk⟩ := (h (x, yl, yu)).2 ⟨i, hi⟩
    exact H k x yl yu hk
  · intro H i x yl yu hi
    obtain ⟨k, hk⟩ := (h (x, yl, yu)).1 ⟨i, hi⟩
    exact H k x yl yu hk

theorem Reordered.fittable {d e : Segments} (h : Reordered d e) (lo hi : List ℝ) (np nq ny : ℕ) :
    Fittable e.store lo hi np nq ny ↔ Fittable d.store lo hi np nq ny := by
  unfold Fittable
  rw [h.layout.1]
  have F := forall_segments d.store e.store h.segments
  refine exists_congr fun a => exists_congr fun b => and_congr_right fun _ => and_congr_right fun _ => ?_
  exact and_congr (or_congr (F fun x _ _ => 0 < polynomial d.store.dimX lo hi b x)
    (F fun x _ _ => polynomial d.store.dimX lo hi b x < 0))
    (F fun x yl yu => arr yl ny < polynomial d.store.dimX lo hi a x / polynomial d.store.dimX lo hi b x ∧
      polynomial d.store.dimX lo hi a x / polynomial d.store.dimX lo hi b x < arr yu ny)

theorem Reordered.ordered {d e : Segments} (h : Reordered d e) (hd : d.store.Ordered) : e.store.Ordered := by
  unfold Store.Ordered at hd ⊢
  rw [h.layout.2.1]
  exact (forall_segments d.store e.store h.segments fun _ yl yu => ∀ ny < d.store.dimY, arr yl ny ≤ arr yu ny).2 hd

/-- **C94.**  Whether the quadratic programming fitter finds a function does not depend on the order of the samples. -/
theorem quadprog_reordered (solve : Solver) (hsound : solve.Sound) (hcomplete : solve.Complete) (junk delta : ℝ)
    (hdelta : 0 < delta) {d e : Segments} (h : Reordered d e) (hkind : d.store.kind = .asymmetrical)
    (hord : d.store.Ordered) (hsize : 0 < d.store.size) (hdx : 1 ≤ d.store.dimX) (np nq : ℕ) (minNp minNq : Option ℕ)
    (h1p : 1 ≤ minNp.getD np) (h1q : 1 ≤ minNq.getD nq) (f : RatFn) (hx : f.dimX = d.store.dimX)
    (hy : f.dimY = d.store.dimY) :
    ∃ ok f1 f2, quadprogFit solve junk delta d np nq minNp minNq f = some (ok, f1) ∧
      quadprogFit solve junk delta e np nq minNp minNq f = some (ok, f2) := by
  obtain ⟨ok1, f1, a1, a2⟩ := quadprog_fit_complete solve hsound hcomplete junk delta hdelta d hkind hord hsize hdx np nq
    minNp minNq h1p h1q f hx hy
  have hsz : e.store.size = d.store.size := by
    have := h.samples.length_eq
    simpa [Segments.samples] using this.symm
  obtain ⟨ok2, f2, b1, b2⟩ := quadprog_fit_complete solve hsound hcomplete junk delta hdelta e
    (h.layout.2.2.2.2.trans hkind) (h.ordered hord) (by omega) (by rw [h.layout.1]; exact hdx) np nq
    minNp minNq h1p h1q f (by rw [h.layout.1]; exact hx) (by rw [h.layout.2.1]; exact hy)
  have : ok2 = ok1 := by
    rw [Bool.eq_iff_iff, a2, b2, h.min, h.max, h.layout.2.1]
    simp only [h.fittable]
  subst this
  exact ⟨_, _, _, a1, b1⟩

end
end Alta
