import Verif.Model.Timer
import Mathlib.Tactic.Linarith
import Mathlib.Algebra.BigOperators.Group.List.Basic
/-
C48: the timer accumulates the running time.
-/
namespace Alta

/-- a reading of a clock that counts seconds from some origin, `unsigned int` -/
def clock (t : ℕ) : BitVec 32 := BitVec.ofNat 32 t

/-- the calls of a program that starts and stops a timer at the given times -/
def intervalOps : List (ℕ × ℕ) → List TimerOp
  | [] => []
  | (a, b) :: r => .start (clock a) :: .stop (clock b) :: intervalOps r

/-- total length of the intervals -/
def totalTime (l : List (ℕ × ℕ)) : ℕ := (l.map (fun p => p.2 - p.1)).sum

theorem clock_sub (a b : ℕ) (h : a ≤ b) : clock b - clock a = BitVec.ofNat 32 (b - a) := by
  unfold clock
  have : BitVec.ofNat 32 b = BitVec.ofNat 32 (b - a) + BitVec.ofNat 32 a := by
    rw [← BitVec.ofNat_add, Nat.sub_add_cancel h]
  rw [this, BitVec.add_sub_cancel]

theorem toInt_small (n : ℕ) (h : n < 2 ^ 31) : (BitVec.ofNat 32 n).toInt = (n : ℤ) := by
  rw [BitVec.toInt_eq_toNat_cond, BitVec.toNat_ofNat, Nat.mod_eq_of_lt (by omega),
    if_pos (by omega)]

theorem run_append (c : Timer) (h h' : List TimerOp) :
    c.run (h ++ h') = (c.run h).run h' := by simp [Timer.run]

theorem run_intervals (l : List (ℕ × ℕ)) (hl : ∀ p ∈ l, p.1 ≤ p.2) (c : Timer)
    (hc : c.stop = c.start) :
    (c.run (intervalOps l)).stop = (c.run (intervalOps l)).start ∧
    (c.run (intervalOps l)).elapsed = c.elapsed + BitVec.ofNat 32 (totalTime l) := by
  induction l generalizing c with
  | nil => exact ⟨hc, by simp [Timer.run, intervalOps, totalTime]⟩
  | cons p l ih =>
    obtain ⟨a, b⟩ := p
    have hab : a ≤ b := hl (a, b) (by simp)
    have h1 : c.run (intervalOps ((a, b) :: l)) =
        Timer.run ((c.startAt (clock a)).stopAt (clock b)) (intervalOps l) := rfl
    rw [h1]
    obtain ⟨h2, h3⟩ := ih (fun p hp => hl p (by simp [hp]))
      ((c.startAt (clock a)).stopAt (clock b)) rfl
    refine ⟨h2, ?_⟩
    rw [h3]
    simp only [Timer.startAt, Timer.stopAt, hc, BitVec.sub_self, clock_sub a b hab]
    simp only [totalTime, List.map_cons, List.sum_cons, BitVec.ofNat_add]
    simp [BitVec.add_assoc]

/-- **C48.**  Whatever happened before, after a reset followed by any sequence of
    start/stop intervals the elapsed time is the sum of the lengths of the intervals; a
    last interval that was started and not stopped does not count.  The only condition
    is that the sum is an `int`. -/
theorem timer_elapsed (c : Timer) (past : List TimerOp) (r : ℕ) (l : List (ℕ × ℕ))
    (hl : ∀ p ∈ l, p.1 ≤ p.2) (hsum : totalTime l < 2 ^ 31) (running : List ℕ)
    (hrun : running.length ≤ 1) :
    (c.run (past ++ .reset (clock r) :: (intervalOps l ++
      running.map (fun t => .start (clock t))))).read = totalTime l := by
  have h0 : c.run (past ++ .reset (clock r) :: (intervalOps l ++
      running.map (fun t => .start (clock t)))) =
      (((c.run past).resetAt (clock r)).run (intervalOps l)).run
        (running.map (fun t => .start (clock t))) := by
    simp only [Timer.run, List.foldl_append, List.foldl_cons]
    rfl
  rw [h0]
  obtain ⟨h1, h2⟩ := run_intervals l hl ((c.run past).resetAt (clock r)) rfl
  have h3 : ((((c.run past).resetAt (clock r)).run (intervalOps l)).run
        (running.map (fun t => .start (clock t)))).elapsed =
      BitVec.ofNat 32 (totalTime l) := by
    rcases running with _ | ⟨t, _ | ⟨t', r'⟩⟩
    · simpa [Timer.run, Timer.resetAt] using h2
    · simp only [List.map_cons, List.map_nil]
      show ((((c.run past).resetAt (clock r)).run (intervalOps l)).startAt (clock t)).elapsed = _
      simp only [Timer.startAt, h1, BitVec.sub_self, h2]
      simp [Timer.resetAt]
    · simp at hrun
  unfold Timer.read
  rw [h3, toInt_small _ hsum]

/-- two intervals of 10 and 25 seconds, then a start -/
example (c : Timer) : (c.run ([.stop (clock 3), .start (clock 4)] ++ .reset (clock 7) ::
    (intervalOps [(10, 20), (50, 75)] ++ [100].map (fun t => .start (clock t))))).read = 35 :=
  timer_elapsed c _ 7 [(10, 20), (50, 75)] (by simp) (by decide) [100] (by simp)

/-- A timer that was only reset behaves as if it had been started: stopping it counts
    the time since the reset. -/
theorem timer_reset_stop (c : Timer) (r t : ℕ) (h : r ≤ t) (hlt : t - r < 2 ^ 31) :
    (c.run [.reset (clock r), .stop (clock t)]).read = ((t - r : ℕ) : ℤ) := by
  show ((c.resetAt (clock r)).stopAt (clock t)).elapsed.toInt = _
  simp only [Timer.resetAt, Timer.stopAt, clock_sub r t h]
  have hz : (0 : BitVec 32) + BitVec.ofNat 32 (t - r) = BitVec.ofNat 32 (t - r) := by simp
  rw [hz, toInt_small _ hlt]

/-- Limit: stopping a stopped timer counts the pause. -/
theorem timer_stop_twice (c : Timer) (t t' : BitVec 32) :
    ((c.stopAt t).stopAt t').elapsed = (c.stopAt t).elapsed + (t' - t) := rfl

/-- Limit: starting a running timer subtracts time: a timer reset at 0, started at 5 and
    started again reports -5. -/
theorem timer_start_twice (c : Timer) (t : ℕ) :
    (c.run [.reset (clock 0), .start (clock 5), .start (clock t)]).read = -5 := by
  show (((c.resetAt (clock 0)).startAt (clock 5)).startAt (clock t)).elapsed.toInt = -5
  simp only [Timer.resetAt, Timer.startAt]
  decide

/-- **C48**, printing.  The printed hours, minutes and seconds are the elapsed time
    exactly when it is less than six minutes: the hours are computed with 360 instead of
    3600 seconds. -/
theorem timer_print (c : Timer) :
    (3600 * c.print.1 + 60 * c.print.2.1 + c.print.2.2 = c.elapsed.toNat) ↔
      c.elapsed.toNat < 360 := by
  simp only [Timer.print]
  generalize c.elapsed.toNat = t
  omega

end Alta
