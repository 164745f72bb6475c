import Verif.Spec.PythonArgs
import Verif.Props.CommandLine
import Verif.Props.ArgsAccess
import Verif.Props.Data2Brdf
/-
C84: options and vectors made in Python.
-/
namespace Alta
noncomputable section

/-! ### Options -/

theorem pyArguments_concat (items : List (Str × Str)) (i : Str × Str) :
    pyArguments (items ++ [i]) = (pyArguments items).update i.1 i.2 := by
  unfold pyArguments
  rw [List.foldl_append]
  rfl

theorem pyArguments_ordered (items : List (Str × Str)) : (pyArguments items).Ordered := by
  induction items using List.reverseRecOn with
  | nil => exact SMap.ordered_nil
  | append_singleton items i ih => rw [pyArguments_concat]; exact ih.update _ _

/-- C84: an option made from a dictionary has the text of the value of its key, the last one when several keys have the
    same text; `options[k]` is empty when the dictionary has no such key. -/
theorem python_arguments_find (items : List (Str × Str)) (k : Str) :
    (pyArguments items).find k = lastItem k items ∧ (pyArguments items).get k = (lastItem k items).getD [] := by
  have h : (pyArguments items).find k = lastItem k items := by
    induction items using List.reverseRecOn with
    | nil => rfl
    | append_singleton items i ih =>
      rw [pyArguments_concat, SMap.find_update (pyArguments_ordered items), ih]
      unfold lastItem
      rw [List.filter_append]
      by_cases hk : k = i.1
      · subst hk
        simp
      · rw [if_neg hk]
        have : ¬ i.1 = k := fun h => hk h.symm
        simp [this]
  refine ⟨h, ?_⟩
  unfold SMap.get
  rw [h]

/-- C84: `options.update(k, v)` changes this option and no other. -/
theorem python_arguments_update (items : List (Str × Str)) (k v : Str) :
    (pyArguments items).update k v = pyArguments (items ++ [(k, v)]) ∧
    ((pyArguments items).update k v).get k = v ∧
    ∀ k', k' ≠ k → ((pyArguments items).update k v).get k' = (pyArguments items).get k' := by
  refine ⟨(pyArguments_concat items (k, v)).symm, ?_, fun k' hk => ?_⟩
  · unfold SMap.get
    rw [SMap.find_update (pyArguments_ordered items), if_pos rfl]
    rfl
  · unfold SMap.get
    rw [SMap.find_update (pyArguments_ordered items), if_neg hk]

/-- Two maps with the same values are the same map. -/
theorem SMap.ext_find {a b : SMap} (ha : a.Ordered) (hb : b.Ordered) (h : ∀ k, a.find k = b.find k) : a = b := by
  induction a generalizing b with
  | nil =>
    cases b with
    | nil => rfl
    | cons e b =>
      have := h e.1
      simp [SMap.find] at this
  | cons e a ih =>
    cases b with
    | nil =>
      have := h e.1
      simp [SMap.find] at this
    | cons f b =>
      unfold SMap.Ordered at ha hb
      rw [List.pairwise_cons] at ha hb
      have hef : e.1 = f.1 := by
        rcases lt_trichotomy e.1 f.1 with hlt | heq | hgt
        · have h1 := h e.1
          rw [SMap.find_eq_none_of_lt (f :: b) e.1 (by
            intro g hg
            rcases List.mem_cons.1 hg with rfl | hg
            · exact hlt
            · exact lt_trans hlt (hb.1 g hg))] at h1
          simp [SMap.find] at h1
        · exact heq
        · have h1 := h f.1
          rw [SMap.find_eq_none_of_lt (e :: a) f.1 (by
            intro g hg
            rcases List.mem_cons.1 hg with rfl | hg
            · exact hgt
            · exact lt_trans hgt (ha.1 g hg))] at h1
          simp [SMap.find] at h1
      have hv : e.2 = f.2 := by
        have h1 := h e.1
        simp only [SMap.find, if_true] at h1
        rw [if_pos hef] at h1
        exact Option.some.inj h1
      have hrest : a = b := by
        refine ih ha.2 hb.2 fun k => ?_
        by_cases hk : k = e.1
        · subst hk
          rw [SMap.find_eq_none_of_lt a _ ha.1, SMap.find_eq_none_of_lt b _ (fun g hg => by rw [hef]; exact hb.1 g hg)]
        · have h1 := h k
          simp only [SMap.find] at h1
          rw [if_neg hk, if_neg (by rw [← hef]; exact hk)] at h1
          exact h1
      rw [hrest, Prod.ext hef hv]

theorem lastItem_firstBinding (is : List Item) (items : List (Str × Str)) (hi : is.filterMap Item.binding = items)
    (hd : (items.map (·.1)).Nodup) (k : Str) : lastItem k items = firstBinding k is := by
  subst hi
  induction is with
  | nil => rfl
  | cons i is ih =>
    unfold firstBinding
    cases hb : i.binding with
    | none =>
      rw [List.filterMap_cons_none hb] at hd ⊢
      exact ih hd
    | some b =>
      rw [List.filterMap_cons_some hb] at hd ⊢
      rw [List.map_cons, List.nodup_cons] at hd
      by_cases hk : k = b.1
      · subst hk
        have hnone : (List.filterMap Item.binding is).filter (fun i => i.1 = b.1) = [] := by
          rw [List.filter_eq_nil_iff]
          intro x hx hc
          exact hd.1 (List.mem_map.2 ⟨x, hx, of_decide_eq_true hc⟩)
        unfold lastItem
        simp [hnone]
      · have hk' : ¬ b.1 = k := fun h => hk h.symm
        have := ih hd.2
        unfold lastItem at this ⊢
        rw [List.filter_cons_of_neg (by simpa using hk')]
        simp only [if_neg hk]
        exact this

/-- C84: the options of a dictionary are those of a command line with the same options (each given once): the same map, so
    that everything that is made from options (functions, data, fits) is the same. -/
theorem python_arguments_command_line (is : List Item) (hr : ReadableLine is) (items : List (Str × Str))
    (hi : is.filterMap Item.binding = items) (hd : (items.map (·.1)).Nodup) :
    parseArgs (lineWords is) [] = some (pyArguments items) := by
  obtain ⟨m, h1, h2, h3⟩ := parseArgs_items is [] SMap.ordered_nil hr
  rw [h1]
  congr 1
  refine SMap.ext_find h2 (pyArguments_ordered items) fun k => ?_
  rw [h3, (python_arguments_find items k).1, lastItem_firstBinding is items hi hd k]
  rfl

/-- C84: so that the function made by `get_function(options)` is the one of the command line. -/
theorem python_function_from_arguments (dir : Str) (env : Option Str) (fs : Str → Option (Symbols (Provider LobeObj)))
    (is : List Item) (hr : ReadableLine is) (items : List (Str × Str)) (hi : is.filterMap Item.binding = items)
    (hd : (items.map (·.1)).Nodup) (p : Par) (m : SMap) (hm : parseArgs (lineWords is) [] = some m) :
    getFunction dir env fs LobeObj.par (pyArguments items) p = getFunction dir env fs LobeObj.par m p := by
  rw [python_arguments_command_line is hr items hi hd] at hm
  cases hm
  rfl

/-! ### Vectors as options -/

theorem vecStr_bracketed (fmt : ℝ → Decimal) (x : ℝ) (xs : List ℝ) :
    vecStr fmt (x :: xs) = bracketed ((fmt x).text :: xs.map fun y => ' ' :: (fmt y).text) := by
  unfold vecStr bracketed
  have key : ∀ (l : List ℝ) (y : ℝ), (List.range l.length).flatMap (fun i => ", ".toList ++ (fmt (arr l i)).text) =
      (joinComma ((fmt y).text :: l.map fun y => ' ' :: (fmt y).text)).drop (fmt y).text.length := by
    intro l
    induction l with
    | nil => intro y; simp [joinComma]
    | cons z l ih =>
      intro y
      rw [List.length_cons, List.range_succ_eq_map, List.flatMap_cons, List.flatMap_map]
      have e : (fun a => ", ".toList ++ (fmt (arr (z :: l) (a + 1))).text) = fun a => ", ".toList ++ (fmt (arr l a)).text := by
        funext a; rfl
      rw [e, ih z]
      simp only [List.map_cons, joinComma, List.drop_left]
      have h0 : arr (z :: l) 0 = z := rfl
      rw [h0]
      cases l with
      | nil => simp [joinComma]
      | cons w l => simp [joinComma]
  rw [List.length_cons, List.range_succ_eq_map, List.flatMap_cons, List.flatMap_map]
  have e : (fun a => (if a + 1 > 0 then ", ".toList else []) ++ (fmt (arr (x :: xs) (a + 1))).text) =
      fun a => ", ".toList ++ (fmt (arr xs a)).text := by
    funext a
    rw [if_pos (Nat.succ_pos a)]
    rfl
  have h0 : arr (x :: xs) 0 = x := rfl
  rw [e, key xs x, h0]
  cases xs with
  | nil => simp [joinComma]
  | cons w l => simp [joinComma]

/-- C84: a vector given as the value of an option is read as the numbers that are printed; the vector itself when numbers
    are printed exactly. -/
theorem python_vec_option (fmt : ℝ → Decimal) (hf : PrintsDigits fmt) (items : List (Str × Str)) (k : Str) (x : ℝ) (xs : List ℝ)
    (h : lastItem k items = some (vecStr fmt (x :: xs))) (d : ℚ) :
    (pyArguments items).getVec k (x :: xs).length d = (x :: xs).map fun y => (fmt y).value := by
  have h1 := (python_arguments_find items k).1
  rw [h, vecStr_bracketed] at h1
  have := getVec_decimals (pyArguments items) k d ([], fmt x) (xs.map fun y => ([' '], fmt y)) (by
      rw [h1]
      simp [List.map_map, Function.comp_def]) (by
      intro p hp c hc
      rcases List.mem_cons.1 hp with rfl | hp
      · cases hc
      · obtain ⟨y, -, rfl⟩ := List.mem_map.1 hp
        simp only [List.mem_singleton] at hc
        subst hc
        decide) (by
      intro p hp
      rcases List.mem_cons.1 hp with rfl | hp
      · exact hf x
      · obtain ⟨y, -, rfl⟩ := List.mem_map.1 hp
        exact hf y)
  simpa [List.map_map, Function.comp_def] using this

end
end Alta
