import Verif.Model.CommandLine
import Mathlib.Tactic.Linarith

/-!
# C50: command line parsing without Argp
-/

namespace MaRC.CommandLine

theorem loop_skip (a : List String) (fin : ℕ) (n : Bool) (hf : fin ≤ a.length) :
    ∀ (k arg : ℕ), arg + k ≤ fin →
      (∀ i, arg ≤ i → i < arg + k → ∀ s, a[i]? = some s → (isDash s && !n) = false) →
      loop a arg fin n = loop a (arg + k) fin n := by
  intro k
  induction k with
  | zero => intro arg _ _; rfl
  | succ k ih =>
    intro arg h hs
    rw [loop, if_neg (by omega), dif_pos (by omega)]
    have hlt : arg < a.length := by omega
    rw [List.getElem?_eq_getElem hlt]
    simp only
    rw [if_neg (by
      have := hs arg le_rfl (by omega) _ (List.getElem?_eq_getElem hlt)
      rw [this]; simp)]
    rw [ih (arg + 1) (by omega) fun i h1 h2 => hs i (by omega) (by omega),
      show arg + 1 + k = arg + (k + 1) by omega]

theorem loop_end (a : List String) (fin : ℕ) (n : Bool) : loop a fin fin n = .ok (.inr (a, fin)) := by
  rw [loop, if_pos rfl]

/-- Options that print information and end the program successfully. -/
def infoOptions : List String := ["--usage", "--help", "-?", "--version", "-V"]

/-- Result for a list of operands: usage error if there is none. -/
def operands (l : List String) : Result := if l = [] then .exitUsage else .files l

/-- C50: without options the files are the arguments, in order. -/
theorem C50_operands (args : List String) (h : ∀ s ∈ args, isDash s = false) :
    parse args = .ok (operands args) := by
  unfold parse
  have := loop_skip args args.length false le_rfl args.length 0 (by omega)
    (fun i _ _ s hs => by rw [h s (List.mem_of_getElem? hs)]; rfl)
  rw [Nat.zero_add] at this
  rw [this, loop_end]
  simp only [Outcome.bind_ok, List.take_length, operands]
  by_cases he : args = []
  · simp [he]
  · simp [he]

/-- C50: `--` is dropped, and everything after it is an operand. -/
theorem C50_end_of_options (pre post : List String) (h : ∀ s ∈ pre, isDash s = false) :
    parse (pre ++ "--" :: post) = .ok (operands (pre ++ post)) := by
  unfold parse
  have hlen : (pre ++ "--" :: post).length = pre.length + post.length + 1 := by simp; omega
  have hskip := loop_skip (pre ++ "--" :: post) (pre ++ "--" :: post).length false le_rfl
    pre.length 0 (by omega)
    (fun i _ hi s hs => by
      rw [List.getElem?_append_left (by omega)] at hs
      rw [h s (List.mem_of_getElem? hs)]; rfl)
  rw [Nat.zero_add] at hskip
  rw [hskip, loop, if_neg (by omega), dif_pos (by omega)]
  rw [List.getElem?_append_right le_rfl, Nat.sub_self, List.getElem?_cons_zero]
  have hd : isDash "--" = true := by decide
  simp only [hd, Bool.not_false, Bool.and_self, if_true]
  rw [dif_pos (by omega)]
  have hrot : rotate (pre ++ "--" :: post) pre.length (pre ++ "--" :: post).length =
      pre ++ post ++ ["--"] := by
    unfold rotate
    rw [List.take_length, List.drop_length, List.drop_left, List.take_left]
    simp
  rw [hrot, hlen, show pre.length + post.length + 1 - 1 = pre.length + post.length by omega]
  have hrl : (pre ++ post ++ ["--"]).length = pre.length + post.length + 1 := by simp; omega
  have hfin : loop (pre ++ post ++ ["--"]) (pre.length + 1) (pre.length + post.length) true =
      .ok (.inr (pre ++ post ++ ["--"], pre.length + post.length)) := by
    cases post with
    | nil =>
      rw [loop, if_neg (by simp), dif_pos (by rw [hrl]; simp)]
      rw [List.getElem?_eq_none (by rw [hrl]; simp)]
    | cons x post =>
      have := loop_skip (pre ++ (x :: post) ++ ["--"]) (pre.length + (x :: post).length) true
        (by rw [hrl]; omega) post.length (pre.length + 1) (by simp; omega)
        (fun i _ _ s _ => by simp)
      rw [this, show pre.length + 1 + post.length = pre.length + (x :: post).length by
        simp; omega, loop_end]
  rw [hfin]
  simp only [Outcome.bind_ok, operands]
  have htake : (pre ++ post ++ ["--"]).take (pre.length + post.length) = pre ++ post := by
    rw [show pre.length + post.length = (pre ++ post).length by simp, List.take_left]
  rw [htake]
  by_cases he : pre ++ post = []
  · simp only [List.append_eq_nil_iff] at he
    simp [he.1, he.2]
  · have : pre.length + post.length ≠ 0 := by
      rw [← List.length_append]; simpa using he
    rw [if_neg this, if_neg he]

/-- C50: at the first option, a help, usage or version option ends the program
successfully, and any other option ends it with a usage error; what follows is not
looked at. -/
theorem C50_option (pre rest : List String) (s : String) (h : ∀ s ∈ pre, isDash s = false)
    (hs : isDash s = true) (hdd : s ≠ "--") :
    parse (pre ++ s :: rest) = .ok (if s ∈ infoOptions then .exitSuccess else .exitUsage) := by
  unfold parse
  have hlen : (pre ++ s :: rest).length = pre.length + rest.length + 1 := by simp; omega
  have hskip := loop_skip (pre ++ s :: rest) (pre ++ s :: rest).length false le_rfl
    pre.length 0 (by omega)
    (fun i _ hi s hs => by
      rw [List.getElem?_append_left (by omega)] at hs
      rw [h s (List.mem_of_getElem? hs)]; rfl)
  rw [Nat.zero_add] at hskip
  rw [hskip, loop, if_neg (by omega), dif_pos (by omega)]
  rw [List.getElem?_append_right le_rfl, Nat.sub_self, List.getElem?_cons_zero]
  simp only [hs, Bool.not_false, Bool.and_self, if_true, if_neg hdd]
  by_cases h1 : s = "--usage"
  · subst h1; simp [infoOptions]
  · rw [if_neg h1]
    by_cases h2 : s = "--help" ∨ s = "-?"
    · rcases h2 with rfl | rfl <;> simp [infoOptions]
    · rw [if_neg h2]
      by_cases h3 : s = "--version" ∨ s = "-V"
      · rcases h3 with rfl | rfl <;> simp [infoOptions]
      · rw [if_neg h3]
        have : s ∉ infoOptions := by simp [infoOptions]; tauto
        simp [this]

/-- Every argument list is one of those of the three theorems above. -/
theorem C50_complete (args : List String) :
    (∀ s ∈ args, isDash s = false) ∨
    ∃ pre s rest, args = pre ++ s :: rest ∧ (∀ s ∈ pre, isDash s = false) ∧ isDash s = true := by
  induction args with
  | nil => left; simp
  | cons x xs ih =>
    cases hx : isDash x with
    | true => right; exact ⟨[], x, xs, rfl, by simp, hx⟩
    | false =>
      rcases ih with h | ⟨pre, s, rest, rfl, h1, h2⟩
      · left; intro s hs
        rcases List.mem_cons.mp hs with rfl | hs
        · exact hx
        · exact h s hs
      · right
        refine ⟨x :: pre, s, rest, rfl, ?_, h2⟩
        intro s hs
        rcases List.mem_cons.mp hs with rfl | hs
        · exact hx
        · exact h1 s hs

example : parse ["a.inp", "--", "-b.inp", "--help"] = .ok (.files ["a.inp", "-b.inp", "--help"]) := by
  simpa [operands] using C50_end_of_options ["a.inp"] ["-b.inp", "--help"] (by decide)
example : parse ["a.inp", "-x", "--help"] = .ok .exitUsage := by
  simpa [infoOptions] using C50_option ["a.inp"] ["--help"] "-x" (by decide) (by decide) (by decide)
example : parse ["a.inp", "-V", "-x"] = .ok .exitSuccess := by
  simpa [infoOptions] using C50_option ["a.inp"] ["-x"] "-V" (by decide) (by decide) (by decide)
example : parse ["--"] = .ok .exitUsage := by
  simpa [operands] using C50_end_of_options [] [] (by decide)

end MaRC.CommandLine
