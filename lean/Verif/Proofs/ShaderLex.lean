import Verif.Proofs.ShaderPrograms
import Verif.Proofs.Decimal
/-
The words of the exported shaders: reading them piece by piece.
-/
namespace Alta
open Glsl Real

/-- reading more characters -/
def lexRun (st : LexState) (s : Str) : LexState := s.foldl lexStep st

theorem lexRun_append (st : LexState) (a b : Str) : lexRun st (a ++ b) = lexRun (lexRun st a) b :=
  List.foldl_append

theorem lexRun_cons (st : LexState) (c : Char) (b : Str) : lexRun st (c :: b) = lexRun (lexStep st c) b := rfl

theorem lexRun_nil (st : LexState) : lexRun st [] = st := rfl

theorem lexStep_done (D : List Token) (w : Str) (c : Char) :
    lexStep ⟨D, w⟩ c = ⟨D ++ (lexStep ⟨[], w⟩ c).done, (lexStep ⟨[], w⟩ c).word⟩ := by
  unfold lexStep
  split <;> simp

theorem lexRun_done (D : List Token) (w : Str) (s : Str) :
    lexRun ⟨D, w⟩ s = ⟨D ++ (lexRun ⟨[], w⟩ s).done, (lexRun ⟨[], w⟩ s).word⟩ := by
  induction s generalizing D w with
  | nil => simp [lexRun]
  | cons c s ih =>
    rw [lexRun_cons, lexRun_cons, lexStep_done, ih, ih (lexStep ⟨[], w⟩ c).done]
    simp

/-- a text that is read into whole words -/
theorem lexRun_of (D : List Token) (w s w' : Str) (T : List Token) (h : lexRun ⟨[], w⟩ s = ⟨T, w'⟩) :
    lexRun ⟨D, w⟩ s = ⟨D ++ T, w'⟩ := by
  rw [lexRun_done, h]

/-- characters that belong to a word -/
theorem lexRun_word (D : List Token) (w s : Str) (h : ∀ c ∈ s, (isLetter c || isDigit c) = true) :
    lexRun ⟨D, w⟩ s = ⟨D, w ++ s⟩ := by
  induction s generalizing w with
  | nil => simp [lexRun]
  | cons c s ih =>
    have h1 : lexStep ⟨D, w⟩ c = ⟨D, w ++ [c]⟩ := by
      unfold lexStep
      have := h c (by simp)
      simp [this]
    rw [lexRun_cons, h1, ih _ (fun c hc => h c (by simp [hc]))]
    simp

/-- a character that ends a word -/
theorem lexStep_end (D : List Token) (w : Str) (c : Char) (h1 : isLetter c = false) (h2 : isDigit c = false)
    (h3 : c ≠ '.') (h4 : c ≠ '+') (h5 : c ≠ '-') (h6 : isSpace c = false) :
    lexStep ⟨D, w⟩ c = ⟨D ++ flush w ++ [.sym c], []⟩ := by
  unfold lexStep
  simp [h1, h2, h3, h4, h5, h6]

/-! ### Numbers -/

/-- the text of a number without its sign -/
def Decimal.unsigned (d : Decimal) : Str :=
  showDigits d.ip ++ (if d.fp = [] then [] else '.' :: showDigits d.fp) ++ expText d.exp

/-- the words of a number -/
def Decimal.toks (d : Decimal) : List Token := (if d.neg then [.sym '-'] else []) ++ [.num d.unsigned]

theorem Decimal.text_unsigned (d : Decimal) : d.text = (if d.neg then ['-'] else []) ++ d.unsigned := by
  unfold Decimal.text Decimal.unsigned expText
  simp only [List.append_assoc]
  rfl

theorem isDigit_showDigits (l : List (Fin 10)) (c : Char) (hc : c ∈ showDigits l) : isDigit c = true := by
  obtain ⟨k, hk, rfl⟩ := showDigits_all l c hc
  exact (digitChar_spec k hk).1

theorem showDigits_number (l : List (Fin 10)) (h : l ≠ []) (s : Str) : inNumber (showDigits l ++ s) = true := by
  cases l with
  | nil => exact absurd rfl h
  | cons k l => exact (digitChar_spec k.val k.2).1

theorem lexRun_unsigned (D : List Token) (d : Decimal) (h : d.ip ≠ []) :
    lexRun ⟨D, []⟩ d.unsigned = ⟨D, d.unsigned⟩ := by
  unfold Decimal.unsigned
  rw [lexRun_append, lexRun_append, lexRun_word D [] _ (fun c hc => by simp [isDigit_showDigits _ c hc])]
  rw [List.nil_append]
  have h1 : lexRun ⟨D, showDigits d.ip⟩ (if d.fp = [] then [] else '.' :: showDigits d.fp) =
      ⟨D, showDigits d.ip ++ (if d.fp = [] then [] else '.' :: showDigits d.fp)⟩ := by
    split
    · simp [lexRun]
    · have hs : lexStep ⟨D, showDigits d.ip⟩ '.' = ⟨D, showDigits d.ip ++ ['.']⟩ := by
        unfold lexStep
        have := showDigits_number d.ip h []
        rw [List.append_nil] at this
        simp [this]
      rw [lexRun_cons, hs, lexRun_word D _ _ (fun c hc => by simp [isDigit_showDigits _ c hc])]
      simp
  rw [h1]
  have h2 : inNumber (showDigits d.ip ++ (if d.fp = [] then [] else '.' :: showDigits d.fp)) = true :=
    showDigits_number d.ip h _
  generalize showDigits d.ip ++ (if d.fp = [] then [] else '.' :: showDigits d.fp) = w at h2 ⊢
  cases d.exp with
  | none => simp [expText, lexRun]
  | some e =>
    have hs : lexStep ⟨D, w⟩ 'e' = ⟨D, w ++ ['e']⟩ := by
      unfold lexStep
      rw [if_pos (by have : isLetter 'e' = true := by decide
                     simp [this])]
    rw [expText, lexRun_cons, hs]
    have hd : ∀ c ∈ showNat e.natAbs, (isLetter c || isDigit c) = true := fun c hc => by
      simp [showNat_all_digit _ c hc]
    unfold showInt
    split
    · have hm : lexStep ⟨D, w ++ ['e']⟩ '-' = ⟨D, w ++ ['e'] ++ ['-']⟩ := by
        unfold lexStep
        have : inNumber (w ++ ['e']) = true := by
          cases w with
          | nil => cases h2
          | cons a w => exact h2
        simp [this, afterExponent]
      rw [lexRun_cons, hm, lexRun_word D _ _ hd]
      simp
    · rw [lexRun_word D _ _ hd]
      simp

theorem unsigned_inNumber (d : Decimal) (h : d.ip ≠ []) : inNumber d.unsigned = true := by
  unfold Decimal.unsigned
  rw [List.append_assoc]
  exact showDigits_number d.ip h _

theorem flush_unsigned (d : Decimal) (h : d.ip ≠ []) : flush d.unsigned = [.num d.unsigned] := by
  have := unsigned_inNumber d h
  unfold flush
  rw [if_neg, if_pos this]
  intro h'
  rw [h'] at this
  cases this

/-- a number, and a symbol that ends it -/
theorem lexRun_number (D : List Token) (d : Decimal) (h : d.ip ≠ []) (c : Char) (h1 : isLetter c = false)
    (h2 : isDigit c = false) (h3 : c ≠ '.') (h4 : c ≠ '+') (h5 : c ≠ '-') (h6 : isSpace c = false) :
    lexRun ⟨D, []⟩ (d.text ++ [c]) = ⟨D ++ d.toks ++ [.sym c], []⟩ := by
  rw [d.text_unsigned, lexRun_append, lexRun_append]
  have hs : lexRun ⟨D, []⟩ (if d.neg then ['-'] else []) = ⟨D ++ (if d.neg then [.sym '-'] else []), []⟩ := by
    cases d.neg with
    | false => simp [lexRun]
    | true =>
      show lexStep ⟨D, []⟩ '-' = _
      rw [lexStep_done]; rfl
  rw [hs, lexRun_unsigned _ d h]
  show lexStep _ c = _
  rw [lexStep_end _ _ c h1 h2 h3 h4 h5 h6, flush_unsigned d h]
  simp [Decimal.toks]

/-! ### Calls -/

noncomputable section

/-- the words of numbers separated by commas -/
def listToks (fmt : ℝ → Decimal) : List ℝ → List Token
  | [] => []
  | [x] => (fmt x).toks
  | x :: rest => (fmt x).toks ++ [.sym ','] ++ listToks fmt rest

/-- how the numbers are written: digits before the point -/
def PrintsInteger (fmt : ℝ → Decimal) : Prop := ∀ x, (fmt x).ip ≠ []

theorem lexRun_numbers (fmt : ℝ → Decimal) (hf : PrintsInteger fmt) (l : List ℝ) (hl : l ≠ []) (D : List Token) :
    lexRun ⟨D, []⟩ (numberList fmt l ++ [')']) = ⟨D ++ listToks fmt l ++ [.sym ')'], []⟩ := by
  induction l generalizing D with
  | nil => exact absurd rfl hl
  | cons x l ih =>
    cases l with
    | nil =>
      exact lexRun_number D (fmt x) (hf x) ')' (by decide) (by decide) (by decide) (by decide) (by decide) (by decide)
    | cons y l =>
      have e : numberList fmt (x :: y :: l) ++ [')'] =
          ((fmt x).text ++ [',']) ++ ([' '] ++ (numberList fmt (y :: l) ++ [')'])) := by
        rw [numberList]
        · simp only [List.append_assoc]; rfl
        · simp
      rw [e, lexRun_append, lexRun_append, lexRun_number D (fmt x) (hf x) ',' (by decide) (by decide) (by decide)
        (by decide) (by decide) (by decide)]
      have hsp : lexRun ⟨D ++ (fmt x).toks ++ [.sym ','], []⟩ [' '] = ⟨D ++ (fmt x).toks ++ [.sym ','], []⟩ := by
        rw [lexRun_done]
        have : lexRun ⟨[], []⟩ [' '] = ⟨[], []⟩ := by decide
        rw [this]; simp
      rw [hsp, ih (by simp)]
      have el : listToks fmt (x :: y :: l) = (fmt x).toks ++ [.sym ','] ++ listToks fmt (y :: l) := by
        rw [listToks.eq_def]
      rw [el]
      simp only [List.append_assoc]

/-- the words of `vec3(...)` -/
def vec3Toks (fmt : ℝ → Decimal) (n : ℕ) (v : ℕ → ℝ) : List Token :=
  [.ident ['v', 'e', 'c', '3'], .sym '('] ++ listToks fmt ((List.range n).map v) ++ [.sym ')']

theorem lexRun_vec3 (fmt : ℝ → Decimal) (hf : PrintsInteger fmt) (n : ℕ) (hn : 0 < n) (v : ℕ → ℝ) (D : List Token) :
    lexRun ⟨D, []⟩ (vec3Text fmt n v) = ⟨D ++ vec3Toks fmt n v, []⟩ := by
  unfold vec3Text
  have h0 : lexRun ⟨[], []⟩ "vec3(".toList = ⟨[.ident ['v', 'e', 'c', '3'], .sym '('], []⟩ := by decide +kernel
  rw [List.append_assoc, lexRun_append, lexRun_of _ _ _ _ _ h0]
  have h1 : ")".toList = [')'] := by decide
  rw [h1, lexRun_numbers fmt hf _ (by simp; omega)]
  simp [vec3Toks]

/-- the words of `, vec3(...), vec3(...)` -/
def vectorToks (fmt : ℝ → Decimal) (n : ℕ) : List (ℕ → ℝ) → List Token
  | [] => []
  | v :: rest => [.sym ','] ++ vec3Toks fmt n v ++ vectorToks fmt n rest

theorem lexRun_vectors (fmt : ℝ → Decimal) (hf : PrintsInteger fmt) (n : ℕ) (hn : 0 < n) (vs : List (ℕ → ℝ))
    (D : List Token) :
    lexRun ⟨D, []⟩ (vectorList fmt n vs) = ⟨D ++ vectorToks fmt n vs, []⟩ := by
  induction vs generalizing D with
  | nil => simp [vectorList, vectorToks, lexRun]
  | cons v vs ih =>
    rw [vectorList, lexRun_append, lexRun_append]
    have h0 : lexRun ⟨[], []⟩ ", ".toList = ⟨[.sym ','], []⟩ := by decide +kernel
    rw [lexRun_of _ _ _ _ _ h0, lexRun_vec3 fmt hf n hn, ih]
    simp [vectorToks]

/-- the words of `name(L, V, N, X, Y, ...)` -/
def callToks (fmt : ℝ → Decimal) (name : Str) (n : ℕ) (vs : List (ℕ → ℝ)) : List Token :=
  [.ident name, .sym '(', .ident ['L'], .sym ',', .ident ['V'], .sym ',', .ident ['N'], .sym ',',
    .ident ['X'], .sym ',', .ident ['Y']] ++ vectorToks fmt n vs ++ [.sym ')']

/-- a name of a function -/
def IsName (w : Str) : Prop := w ≠ [] ∧ inNumber w = false ∧ (∀ c ∈ w, (isLetter c || isDigit c) = true) ∧ reserved w = false

instance (w : Str) : Decidable (IsName w) := by unfold IsName; infer_instance

theorem lexRun_call (fmt : ℝ → Decimal) (hf : PrintsInteger fmt) (name : Str) (h : IsName name) (n : ℕ) (hn : 0 < n)
    (v : ℕ → ℝ) (vs : List (ℕ → ℝ)) (D : List Token) :
    lexRun ⟨D, []⟩ (callText fmt name n (v :: vs)) = ⟨D ++ callToks fmt name n (v :: vs), []⟩ := by
  obtain ⟨h1, h2, h3, -⟩ := h
  have hfl : flush name = [.ident name] := by unfold flush; rw [if_neg h1, h2]; rfl
  have e : callText fmt name n (v :: vs) = name ++ (['('] ++ ("L, V, N, X, Y, ".toList ++
      (vec3Text fmt n v ++ (vectorList fmt n vs ++ [')'])))) := by
    unfold callText
    rw [vectorList]
    have s1 : "(L, V, N, X, Y".toList ++ ", ".toList = ['('] ++ "L, V, N, X, Y, ".toList := by decide +kernel
    have s2 : ")".toList = [')'] := by decide
    rw [s2]
    calc name ++ "(L, V, N, X, Y".toList ++ (", ".toList ++ vec3Text fmt n v ++ vectorList fmt n vs) ++ [')']
        = name ++ (("(L, V, N, X, Y".toList ++ ", ".toList) ++ (vec3Text fmt n v ++ (vectorList fmt n vs ++ [')']))) := by
          simp only [List.append_assoc]
      _ = _ := by rw [s1]; simp only [List.append_assoc]
  have hp : ∀ (D : List Token) (w : Str), lexRun ⟨D, w⟩ ['('] = ⟨D ++ flush w ++ [.sym '('], []⟩ := fun D w =>
    lexStep_end D w '(' (by decide) (by decide) (by decide) (by decide) (by decide) (by decide)
  have hq : ∀ (D : List Token) (w : Str), lexRun ⟨D, w⟩ [')'] = ⟨D ++ flush w ++ [.sym ')'], []⟩ := fun D w =>
    lexStep_end D w ')' (by decide) (by decide) (by decide) (by decide) (by decide) (by decide)
  have h0 : lexRun ⟨[], []⟩ "L, V, N, X, Y, ".toList = ⟨[.ident ['L'], .sym ',', .ident ['V'], .sym ',', .ident ['N'],
      .sym ',', .ident ['X'], .sym ',', .ident ['Y'], .sym ','], []⟩ := by decide +kernel
  rw [e, lexRun_append, lexRun_word _ _ _ h3, lexRun_append, hp, List.nil_append, hfl, lexRun_append,
    lexRun_of _ _ _ _ _ h0, lexRun_append, lexRun_vec3 fmt hf n hn, lexRun_append, lexRun_vectors fmt hf n hn, hq]
  simp [callToks, vectorToks, flush]

end
end Alta
