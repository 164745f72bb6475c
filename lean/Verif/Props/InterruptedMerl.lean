import Verif.Props.Merl
/-
Property C92 for the MERL files.
-/
namespace Alta

/-- Numbers read where there are only zeros. -/
theorem bytesArray_zeros (n m : ℕ) (i : ℕ) (h : i < n) :
    (bytesArray n (List.replicate m (Char.ofNat 0)))[i]? = some 0 := by
  induction n generalizing m i with
  | zero => omega
  | succ n ih =>
    rw [bytesArray]
    cases i with
    | zero =>
      rw [List.getElem?_cons_zero, List.take_replicate]
      have : ∀ k, (List.replicate k (Char.ofNat 0)).foldr (fun c n => c.toNat + 256 * n) 0 = 0 := by
        intro k
        induction k with
        | zero => rfl
        | succ k ih => rw [List.replicate_succ, List.foldr_cons, ih]; rfl
      unfold bytesDbl
      rw [this]
      rfl
    | succ i =>
      rw [List.getElem?_cons_succ, List.drop_replicate]
      exact ih _ i (by omega)

theorem bytesArray_length (n : ℕ) (s : Str) : (bytesArray n s).length = n := by
  induction n generalizing s with
  | zero => rfl
  | succ n ih => rw [bytesArray, List.length_cons, ih]

/-- The numbers read from the first bytes of an array, followed by zeros. -/
theorem bytesArray_cut (l : List Dbl) (k m : ℕ) :
    (bytesArray l.length ((arrayBytes l).take k ++ List.replicate m (Char.ofNat 0))).take (k / 8) = l.take (k / 8) ∧
    ∀ i < l.length, k ≤ 8 * i →
      (bytesArray l.length ((arrayBytes l).take k ++ List.replicate m (Char.ofNat 0)))[i]? = some 0 := by
  induction l generalizing k with
  | nil => simp [bytesArray]
  | cons d l ih =>
    have e : arrayBytes (d :: l) = dblBytes d ++ arrayBytes l := rfl
    have hd := dblBytes_length d
    rcases Nat.lt_or_ge k 8 with hk | hk
    · rw [Nat.div_eq_of_lt hk]
      refine ⟨by simp, ?_⟩
      intro i hi h
      rw [e, List.take_append_of_le_length (by omega), List.length_cons, bytesArray]
      cases i with
      | zero =>
        have : k = 0 := by omega
        subst this
        rw [List.take_zero, List.nil_append]
        exact bytesArray_zeros 1 m 0 (by omega)
      | succ i =>
        rw [List.getElem?_cons_succ, List.drop_append]
        have : (List.take k (dblBytes d)).drop 8 = [] := by
          rw [List.drop_eq_nil_iff, List.length_take]; omega
        rw [this, List.nil_append, List.drop_replicate]
        exact bytesArray_zeros _ _ _ (by simpa using hi)
    · obtain ⟨j, rfl⟩ := Nat.exists_eq_add_of_le hk
      have hdiv : (8 + j) / 8 = j / 8 + 1 := by omega
      have htake : (arrayBytes (d :: l)).take (8 + j) = dblBytes d ++ (arrayBytes l).take j := by
        rw [e]
        conv_lhs => rw [← hd]
        rw [List.take_length_add_append]
      rw [htake, hdiv, List.length_cons, bytesArray, List.append_assoc, List.take_left' hd, List.drop_left' hd,
        bytesDbl_dblBytes, List.take_succ_cons, List.take_succ_cons]
      refine ⟨by rw [(ih j).1], ?_⟩
      intro i hi h
      cases i with
      | zero => omega
      | succ i =>
        rw [List.getElem?_cons_succ]
        exact (ih j).2 i (by simpa using hi) (by omega)

/-- C92 is false of the MERL files: when the writing was interrupted after the dimensions (12 bytes), whatever the
    number of bytes that were written, the file is loaded without an error; the values that were written are there, and
    those that were not are zeros. -/
theorem interrupted_merl_corrupts (brdf : List Dbl) (hb : brdf.length = 3 * merlSize) (n : ℕ) (hn : 12 ≤ n) :
    ∃ t, merlLoad ((merlSave brdf).take n) = some t ∧ t.length = brdf.length ∧
      t.take ((n - 12) / 8) = brdf.take ((n - 12) / 8) ∧
      ∀ i < brdf.length, n ≤ 12 + 8 * i → t[i]? = some 0 := by
  obtain ⟨k, rfl⟩ := Nat.exists_eq_add_of_le hn
  have l : ∀ n, (intBytes n).length = 4 := fun n => by simp [intBytes]
  have hs : merlSave brdf = (intBytes 90 ++ (intBytes 90 ++ intBytes 180)) ++ arrayBytes brdf := by
    unfold merlSave
    rw [List.take_of_length_le (by rw [hb, merlSize_eq]), List.append_assoc, List.append_assoc, List.append_assoc,
      List.append_assoc]
  have hl : (intBytes 90 ++ (intBytes 90 ++ intBytes 180)).length = 12 := by simp [l]
  have hcut : (merlSave brdf).take (12 + k) =
      intBytes 90 ++ (intBytes 90 ++ (intBytes 180 ++ (arrayBytes brdf).take k)) := by
    rw [hs]
    conv_lhs => rw [← hl]
    rw [List.take_length_add_append, List.append_assoc, List.append_assoc]
  have d0 : ((merlSave brdf).take (12 + k)).drop 4 = intBytes 90 ++ (intBytes 180 ++ (arrayBytes brdf).take k) := by
    rw [hcut, List.drop_left' (l 90)]
  have d1 : ((merlSave brdf).take (12 + k)).drop 8 = intBytes 180 ++ (arrayBytes brdf).take k := by
    rw [show 8 = 4 + 4 from rfl, ← List.drop_drop, d0, List.drop_left' (l 90)]
  have d2 : ((merlSave brdf).take (12 + k)).drop 12 = (arrayBytes brdf).take k := by
    rw [show 12 = 8 + 4 from rfl, ← List.drop_drop, d1, List.drop_left' (l 180)]
  have t0 : ((merlSave brdf).take (12 + k)).take 4 = intBytes 90 := by rw [hcut, List.take_left' (l 90)]
  have h := bytesArray_cut brdf k (8 * (3 * merlSize))
  rw [hb] at h
  refine ⟨bytesArray (3 * merlSize) ((arrayBytes brdf).take k ++ List.replicate (8 * (3 * merlSize)) (Char.ofNat 0)),
    ?_, ?_, ?_, ?_⟩
  · unfold merlLoad
    simp only [t0, d0, d1, d2, List.take_left' (l 90), List.take_left' (l 180)]
    rw [bytesInt_intBytes 90 (by norm_num), bytesInt_intBytes 180 (by norm_num), if_neg (by norm_num)]
  · rw [bytesArray_length, hb]
  · rw [show 12 + k - 12 = k by omega]; exact h.1
  · intro i hi hi'
    exact h.2 i (by rw [← hb]; exact hi) (by omega)

/-- hence a value that was not zero is lost without an error -/
theorem interrupted_merl_example :
    ∃ (brdf t : List Dbl) (n : ℕ), brdf.length = 3 * merlSize ∧ n < (merlSave brdf).length ∧
      merlLoad ((merlSave brdf).take n) = some t ∧ t ≠ brdf := by
  have hm : 0 < 3 * merlSize := by rw [merlSize_eq]; norm_num
  refine ⟨List.replicate (3 * merlSize) 1, ?_⟩
  obtain ⟨t, h1, -, -, h4⟩ := interrupted_merl_corrupts (List.replicate (3 * merlSize) 1) (by simp) 12 le_rfl
  refine ⟨t, 12, by simp, ?_, h1, ?_⟩
  · unfold merlSave
    rw [List.take_of_length_le (by rw [List.length_replicate, merlSize_eq]), List.length_append, arrayBytes_length,
      List.length_replicate]
    simp only [intBytes, List.length_append, List.length_map, List.length_range]
    omega
  · intro h
    have := h4 0 (by simpa using hm) (by omega)
    rw [h, List.getElem?_replicate, if_pos hm] at this
    exact absurd (Option.some.inj this) (by decide)

end Alta
