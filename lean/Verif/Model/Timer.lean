import Mathlib.Data.BitVec
/-
Model of the class `timer`.

Modelled: /repo/sources/core/common.cpp 54-91, /repo/sources/core/common.h 190-230.
`unsigned int` is 32 bits wide; the clock readings are arguments of the methods.
-/
namespace Alta

/-- The members of `timer`.  /repo/sources/core/common.h 190-230. -/
structure Timer where
  start : BitVec 32
  stop : BitVec 32
  elapsed : BitVec 32

/-- `timer::start`, the clock reading `t`.  /repo/sources/core/common.cpp 59-63. -/
def Timer.startAt (c : Timer) (t : BitVec 32) : Timer :=
  { c with elapsed := c.elapsed + (c.stop - c.start), start := t }

/-- `timer::stop`, the clock reading `t`.  /repo/sources/core/common.cpp 65-70. -/
def Timer.stopAt (c : Timer) (t : BitVec 32) : Timer :=
  { start := t, stop := t, elapsed := c.elapsed + (t - c.start) }

/-- `timer::reset` (and the constructor), the clock reading `t`.
    /repo/sources/core/common.cpp 54-57, 72-77. -/
def Timer.resetAt (_ : Timer) (t : BitVec 32) : Timer :=
  { start := t, stop := t, elapsed := 0 }

/-- `timer::elapsed`: `unsigned int` to `int`.  /repo/sources/core/common.cpp 79-82. -/
def Timer.read (c : Timer) : ℤ := c.elapsed.toInt

/-- The hours, minutes and seconds printed by `timer::print`.
    /repo/sources/core/common.cpp 84-91. -/
def Timer.print (c : Timer) : ℕ × ℕ × ℕ :=
  let t := c.elapsed.toNat
  (t / 360, t / 60 % 60, t % 60)

/-- The calls that a program makes on a timer, with the clock reading. -/
inductive TimerOp where
  | start (t : BitVec 32)
  | stop (t : BitVec 32)
  | reset (t : BitVec 32)

/-- Effect of a call -/
def Timer.step (c : Timer) : TimerOp → Timer
  | .start t => c.startAt t
  | .stop t => c.stopAt t
  | .reset t => c.resetAt t

/-- Effect of a history of calls -/
def Timer.run (c : Timer) (h : List TimerOp) : Timer := h.foldl Timer.step c

end Alta
