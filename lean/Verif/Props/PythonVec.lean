import Verif.Props.PythonArgs
/-
C84: vectors made in Python.
-/
namespace Alta
noncomputable section

/-- What a command makes of the objects that exist. -/
theorem VecSession.run_length {s s' : VecSession} {c : VecCmd} (h : s.run c = some s') : s.length ≤ s'.length := by
  cases c with
  | make l => cases h; simp
  | copy i =>
    obtain ⟨v, -, rfl⟩ := Option.map_eq_some_iff.1 h
    simp
  | add i j =>
    obtain ⟨a, -, h⟩ := Option.bind_eq_some_iff.1 h
    obtain ⟨b, -, h⟩ := Option.bind_eq_some_iff.1 h
    split_ifs at h
    cases h; simp
  | sub i j =>
    obtain ⟨a, -, h⟩ := Option.bind_eq_some_iff.1 h
    obtain ⟨b, -, h⟩ := Option.bind_eq_some_iff.1 h
    split_ifs at h
    cases h; simp
  | set i k x =>
    obtain ⟨v, -, h⟩ := Option.bind_eq_some_iff.1 h
    split_ifs at h
    cases h; simp

theorem getElem?_concat {α : Type} (s : List α) (v : α) {i : ℕ} (hi : i < s.length) : (s ++ [v])[i]? = s[i]? :=
  List.getElem?_append_left hi

/-- C84: a vector changes only when it is assigned to: a vector made from others (a copy, a sum, a difference) does not
    change with them, nor they with it. -/
theorem python_vec_frame {s s' : VecSession} {c : VecCmd} (h : s.run c = some s') (i : ℕ) (hi : i < s.length)
    (hc : ∀ k a, c ≠ .set i k a) : s'[i]? = s[i]? := by
  cases c with
  | make l => cases h; exact getElem?_concat s l hi
  | copy j =>
    obtain ⟨v, -, rfl⟩ := Option.map_eq_some_iff.1 h
    exact getElem?_concat s v hi
  | add j k =>
    obtain ⟨a, -, h⟩ := Option.bind_eq_some_iff.1 h
    obtain ⟨b, -, h⟩ := Option.bind_eq_some_iff.1 h
    split_ifs at h
    cases h; exact getElem?_concat s _ hi
  | sub j k =>
    obtain ⟨a, -, h⟩ := Option.bind_eq_some_iff.1 h
    obtain ⟨b, -, h⟩ := Option.bind_eq_some_iff.1 h
    split_ifs at h
    cases h; exact getElem?_concat s _ hi
  | set j k x =>
    obtain ⟨v, -, h⟩ := Option.bind_eq_some_iff.1 h
    split_ifs at h
    cases h
    have hj : j ≠ i := by rintro rfl; exact hc k x rfl
    exact List.getElem?_set_ne hj

/-- C84: the same along a whole script. -/
theorem python_vec_script (cs : List VecCmd) {s s' : VecSession} (h : s.runs cs = some s') (i : ℕ) (hi : i < s.length)
    (hc : ∀ c ∈ cs, ∀ k a, c ≠ .set i k a) : s'[i]? = s[i]? := by
  induction cs generalizing s with
  | nil => cases h; rfl
  | cons c cs ih =>
    unfold VecSession.runs at h
    rw [List.foldlM_cons] at h
    obtain ⟨t, ht, h⟩ := Option.bind_eq_some_iff.1 h
    rw [ih h (lt_of_lt_of_le hi (VecSession.run_length ht)) fun c hc' => hc c (List.mem_cons_of_mem _ hc')]
    exact python_vec_frame ht i hi (hc c List.mem_cons_self)

/-- C84: what each command gives, as it is read afterwards: `x[k]` is an error outside of the vector. -/
theorem python_vec_make (s : VecSession) (l : List ℝ) :
    ∃ s', s.run (.make l) = some s' ∧ s'.length = s.length + 1 ∧ ∀ k, s'.item s.length k = some l[k]? := by
  refine ⟨_, rfl, by simp, fun k => ?_⟩
  unfold VecSession.item
  simp

theorem python_vec_copy (s : VecSession) (i : ℕ) (hi : i < s.length) :
    ∃ s', s.run (.copy i) = some s' ∧ s'.length = s.length + 1 ∧ ∀ k, s'.item s.length k = s.item i k := by
  refine ⟨s ++ [s[i]], by simp [VecSession.run, hi], by simp, fun k => ?_⟩
  unfold VecSession.item
  simp [hi]

theorem python_vec_add (s : VecSession) (i j : ℕ) (a b : List ℝ) (ha : s[i]? = some a) (hb : s[j]? = some b)
    (hl : a.length = b.length) :
    ∃ s', s.run (.add i j) = some s' ∧ s'.length = s.length + 1 ∧
      (∀ k (h : k < a.length), s'.item s.length k = some (some (a[k] + b[k]'(hl ▸ h)))) ∧
      ∀ k, a.length ≤ k → s'.item s.length k = some none := by
  refine ⟨s ++ [List.zipWith (· + ·) a b], by simp [VecSession.run, ha, hb, hl], by simp, fun k h => ?_, fun k h => ?_⟩
  · unfold VecSession.item
    have hb : k < b.length := hl ▸ h
    simp [h, hb]
  · unfold VecSession.item
    simp [List.getElem?_eq_none, h]

theorem python_vec_sub (s : VecSession) (i j : ℕ) (a b : List ℝ) (ha : s[i]? = some a) (hb : s[j]? = some b)
    (hl : a.length = b.length) :
    ∃ s', s.run (.sub i j) = some s' ∧ s'.length = s.length + 1 ∧
      (∀ k (h : k < a.length), s'.item s.length k = some (some (a[k] - b[k]'(hl ▸ h)))) ∧
      ∀ k, a.length ≤ k → s'.item s.length k = some none := by
  refine ⟨s ++ [List.zipWith (· - ·) a b], by simp [VecSession.run, ha, hb, hl], by simp, fun k h => ?_, fun k h => ?_⟩
  · unfold VecSession.item
    have hb : k < b.length := hl ▸ h
    simp [h, hb]
  · unfold VecSession.item
    simp [List.getElem?_eq_none, h]

/-- C84: an assignment changes one coordinate. -/
theorem python_vec_set (s : VecSession) (i k : ℕ) (x : ℝ) (a : List ℝ) (ha : s[i]? = some a) (hk : k < a.length) :
    ∃ s', s.run (.set i k x) = some s' ∧ s'.length = s.length ∧ s'.item i k = some (some x) ∧
      (∀ k', k' ≠ k → s'.item i k' = s.item i k') := by
  have hi : i < s.length := by
    by_contra h
    rw [List.getElem?_eq_none (by omega)] at ha
    cases ha
  refine ⟨s.set i (a.set k x), by simp [VecSession.run, ha, hk], by simp, ?_, fun k' h => ?_⟩
  · unfold VecSession.item
    simp [hi, hk]
  · unfold VecSession.item
    rw [List.getElem?_set_self hi, ha]
    simp [List.getElem?_set_ne (Ne.symm h)]

/-- The commands of an expression, when `n` objects exist: its value is the last object. -/
def VecExpr.cmds : VecExpr → ℕ → List VecCmd
  | .list l, _ => [.make l]
  | .add a b, n =>
    let ca := a.cmds n
    let cb := b.cmds (n + ca.length)
    ca ++ cb ++ [.add (n + ca.length - 1) (n + ca.length + cb.length - 1)]
  | .sub a b, n =>
    let ca := a.cmds n
    let cb := b.cmds (n + ca.length)
    ca ++ cb ++ [.sub (n + ca.length - 1) (n + ca.length + cb.length - 1)]

/-- Every list of the expression has `d` numbers. -/
def VecExpr.OfSize (d : ℕ) : VecExpr → Prop
  | .list l => l.length = d
  | .add a b => a.OfSize d ∧ b.OfSize d
  | .sub a b => a.OfSize d ∧ b.OfSize d

theorem VecExpr.value_length {d : ℕ} {e : VecExpr} (h : e.OfSize d) : e.value.length = d := by
  induction e with
  | list l => exact h
  | add a b iha ihb => simp [VecExpr.value, iha h.1, ihb h.2]
  | sub a b iha ihb => simp [VecExpr.value, iha h.1, ihb h.2]

theorem VecExpr.cmds_pos (e : VecExpr) (n : ℕ) : 0 < (e.cmds n).length := by
  cases e <;> simp [VecExpr.cmds]

theorem VecSession.runs_append (s : VecSession) (cs cs' : List VecCmd) :
    s.runs (cs ++ cs') = (s.runs cs).bind fun t => t.runs cs' := by
  unfold VecSession.runs
  rw [List.foldlM_append]
  rfl

/-- C84: an expression has its value, coordinate by coordinate, whatever it is made of, and making it changes no other
    vector. -/
theorem python_vec_expression (d : ℕ) (e : VecExpr) (h : e.OfSize d) (s : VecSession) :
    ∃ new : List (List ℝ), new.length = (e.cmds s.length).length ∧ s.runs (e.cmds s.length) = some (s ++ new) ∧
      (s ++ new)[s.length + (e.cmds s.length).length - 1]? = some e.value := by
  have bin : ∀ (a b : VecExpr) (op : ℝ → ℝ → ℝ) (c : ℕ → ℕ → VecCmd)
      (_ : ∀ (t : VecSession) i j x y, t[i]? = some x → t[j]? = some y → x.length = y.length →
        t.run (c i j) = some (t ++ [List.zipWith op x y]))
      (_ : a.OfSize d) (_ : b.OfSize d)
      (_ : ∀ s : VecSession, ∃ new : List (List ℝ), new.length = (a.cmds s.length).length ∧
        s.runs (a.cmds s.length) = some (s ++ new) ∧
        (s ++ new)[s.length + (a.cmds s.length).length - 1]? = some a.value)
      (_ : ∀ s : VecSession, ∃ new : List (List ℝ), new.length = (b.cmds s.length).length ∧
        s.runs (b.cmds s.length) = some (s ++ new) ∧
        (s ++ new)[s.length + (b.cmds s.length).length - 1]? = some b.value) (s : VecSession),
      let ca := a.cmds s.length
      let cb := b.cmds (s.length + ca.length)
      ∃ new : List (List ℝ), new.length = (ca ++ cb ++ [c (s.length + ca.length - 1) (s.length + ca.length + cb.length - 1)]).length ∧
        s.runs (ca ++ cb ++ [c (s.length + ca.length - 1) (s.length + ca.length + cb.length - 1)]) = some (s ++ new) ∧
        (s ++ new)[s.length + (ca ++ cb ++ [c (s.length + ca.length - 1) (s.length + ca.length + cb.length - 1)]).length - 1]? =
          some (List.zipWith op a.value b.value) := by
    intro a b op c hc ha hb iha ihb s ca cb
    obtain ⟨n1, l1, r1, v1⟩ := iha s
    obtain ⟨n2, l2, r2, v2⟩ := ihb (s ++ n1)
    have el : (s ++ n1).length = s.length + ca.length := by simp [l1, ca]
    rw [el] at l2 r2 v2
    have pa : 0 < ca.length := a.cmds_pos _
    have x1 : (s ++ n1 ++ n2)[s.length + ca.length - 1]? = some a.value := by
      rw [List.getElem?_append_left (by omega)]
      exact v1
    refine ⟨n1 ++ n2 ++ [List.zipWith op a.value b.value], ?_, ?_, ?_⟩
    · simp [l1, l2, ca, cb]
    · rw [VecSession.runs_append, VecSession.runs_append, r1]
      show ((VecSession.runs (s ++ n1) cb).bind _) = _
      rw [r2]
      show VecSession.runs (s ++ n1 ++ n2) _ = _
      unfold VecSession.runs
      rw [List.foldlM_cons, hc _ _ _ _ _ x1 v2 ((VecExpr.value_length ha).trans (VecExpr.value_length hb).symm)]
      simp
    · have e1 : s.length + (ca ++ cb ++ [c (s.length + ca.length - 1) (s.length + ca.length + cb.length - 1)]).length - 1 =
          (s ++ (n1 ++ n2)).length := by
        simp [l1, l2, ca, cb]; omega
      rw [e1, ← List.append_assoc s]
      simp
  induction e generalizing s with
  | list l =>
    refine ⟨[l], rfl, rfl, ?_⟩
    simp [VecExpr.cmds, VecExpr.value]
  | add a b iha ihb =>
    refine bin a b (· + ·) VecCmd.add ?_ h.1 h.2 (iha h.1) (ihb h.2) s
    intro t i j x y hx hy hl
    simp [VecSession.run, hx, hy, hl]
  | sub a b iha ihb =>
    refine bin a b (· - ·) VecCmd.sub ?_ h.1 h.2 (iha h.1) (ihb h.2) s
    intro t i j x y hx hy hl
    simp [VecSession.run, hx, hy, hl]

/-! ### Limits -/

/-- C84, limit: vectors of different sizes are added without a check: memory outside of a vector is read. -/
theorem python_vec_sizes_unchecked (s : VecSession) (i j : ℕ) (a b : List ℝ) (ha : s[i]? = some a) (hb : s[j]? = some b)
    (hl : a.length ≠ b.length) : s.run (.add i j) = none ∧ s.run (.sub i j) = none := by
  simp [VecSession.run, ha, hb, hl]

/-- C84, limit: `x[k]` is an error outside of the vector, `x[k] = a` writes there; `x[-1] = a` too. -/
theorem python_vec_set_unchecked (s : VecSession) (i : ℕ) (a : List ℝ) (ha : s[i]? = some a) (x : ℝ) :
    (∀ k, a.length ≤ k → s.item i k = some none ∧ s.run (.set i k x) = none) ∧ s.run (.set i (-1) x) = none := by
  refine ⟨fun k hk => ⟨?_, ?_⟩, ?_⟩
  · simp [VecSession.item, ha, List.getElem?_eq_none hk]
  · simp [VecSession.run, ha]
    omega
  · simp [VecSession.run, ha]

/-! ### Examples -/

/-- `v = vec([1, 2]); w = vec(v); w[0] = 5; v + w`. -/
example : VecSession.runs [] [.make [1, 2], .copy 0, .set 1 0 5, .add 0 1] =
    some [[1, 2], [5, 2], [6, 4]] := by
  simp [VecSession.runs, VecSession.run, List.foldlM]
  norm_num

example : (VecExpr.sub (.add (.list [1, 2]) (.list [3, 4])) (.list [1, 1])).OfSize 2 ∧
    (VecExpr.sub (.add (.list [1, 2]) (.list [3, 4])) (.list [1, 1])).value = [3, 5] := by
  refine ⟨⟨⟨rfl, rfl⟩, rfl⟩, ?_⟩
  simp [VecExpr.value]
  norm_num

/-- Two keys with the same text, `{1: 'a', '1': 'b'}`: the last value. -/
example : (pyArguments [("1".toList, "a".toList), ("1".toList, "b".toList)]).get "1".toList = "b".toList := by decide

/-- `arguments({'func': 'nonlinear_function_lafortune', 'nq': 2})` and `--func nonlinear_function_lafortune --nq 2`. -/
example : ((pyArguments [("func".toList, "lib".toList), ("nq".toList, "2".toList)]).get "nq".toList = "2".toList) ∧
    (pyArguments [("func".toList, "lib".toList), ("nq".toList, "2".toList)]).get "np".toList = [] := by decide

/-- The hypotheses of `python_arguments_command_line`: `--func lib --nq 2` and `{'func': 'lib', 'nq': 2}`. -/
example : parseArgs (lineWords [.word "func".toList "lib".toList, .word "nq".toList "2".toList]) [] =
    some (pyArguments [("func".toList, "lib".toList), ("nq".toList, "2".toList)]) := by
  refine python_arguments_command_line _ ?_ _ rfl (by decide)
  refine ⟨⟨?_, ?_⟩, ⟨?_, ?_⟩, trivial⟩
  · intro r h; simp at h
  · rintro ⟨r, h⟩; simp at h
  · intro r h; simp at h
  · rintro ⟨r, h⟩; simp at h

end
end Alta
