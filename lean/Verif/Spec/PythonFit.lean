import Verif.Model.PythonFit
/-
What a script in Python relies on when it uses a fitter several times.
-/
namespace Alta
noncomputable section

/-- What the call `k` gives when the fitter was `s` at first and the calls `h` were made before: the result and the
    function (`some none`: an exception about the options); `none` when one of the calls does not end. -/
def FitterCls.outcome {D F : Type} (c : FitterCls D F) (s : c.σ) (h : List (FitCall D F)) (k : FitCall D F) :
    Option (Option (Bool × F)) :=
  (c.after s h).bind fun s' => (c.call s' k).map (·.1)

/-- The calls `h` end, when the fitter is `s` at first. -/
def FitterCls.Ends {D F : Type} (c : FitterCls D F) (s : c.σ) (h : List (FitCall D F)) : Prop := c.after s h ≠ none

/-- The options of the last call that had some. -/
def lastOptions {D F : Type} (h : List (FitCall D F)) : Option SMap := (h.filterMap (·.options)).getLast?

/-- A fit with options gives what `fit` gives, whatever was asked of the fitter before. -/
def FitterCls.FitsWith {D F : Type} (c : FitterCls D F) (fit : D → SMap → F → Option (Bool × F)) : Prop :=
  ∀ s h d f args, c.Ends s h → c.outcome s h ⟨d, f, some args⟩ = (fit d args f).map some

/-- The value of an option in the last of some sets of options that has it. -/
def lastValue (k : Str) (l : List SMap) : Option Str := (l.filterMap fun m => m.find k).getLast?

/-- The options given by the calls. -/
def optionsGiven {D F : Type} (h : List (FitCall D F)) : List SMap := h.filterMap (·.options)

end
end Alta
