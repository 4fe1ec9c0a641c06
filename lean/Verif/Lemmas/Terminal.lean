import Verif.Model.Terminal
import Verif.Spec.Terminal
import Mathlib.Tactic.Common

/-
What a terminal does with the sequences of Model/Terminal.lean.
-/
namespace Msat.Terminal
open Msat Text TerminalSpec

theorem feed_append (s : State) (a b : Bytes) : feed s (a ++ b) = feed (feed s a) b := by
  unfold feed; exact List.foldl_append ..

theorem feed_one (s : State) (c : UInt8) : feed s [c] = step s c := rfl

/-- A digit extends the code being read. -/
theorem feed_digit (s : State) (done : List Nat) (k d : Nat) (hd : d < 10) (hm : s.mode = .codes done k) :
    step s (UInt8.ofNat (48 + d)) = { s with mode := .codes done (k * 10 + d) } := by
  have ht : (UInt8.ofNat (48 + d)).toNat = 48 + d := by
    rw [UInt8.toNat_ofNat']; omega
  unfold step
  rw [hm]
  dsimp only
  rw [ht, if_pos ⟨by omega, by omega⟩]
  congr 3
  omega

/-- The digits of a number extend the code being read. -/
theorem feed_decimal (n : Nat) (s : State) (done : List Nat) (hm : s.mode = .codes done 0) :
    feed s (decimal n) = { s with mode := .codes done n } := by
  induction n using Nat.strongRecOn with
  | ind n ih =>
    rw [decimal]
    by_cases h : n < 10
    · rw [if_pos h]
      show step s _ = _
      rw [feed_digit s done 0 n h hm]
      simp
    · rw [if_neg h, feed_append, ih (n / 10) (by omega)]
      rw [feed_one]
      rw [feed_digit _ done (n / 10) (n % 10) (by omega) rfl]
      congr 2
      omega

/-- Codes with semicolons, and the final letter. -/
theorem feed_codes (cs : List Nat) (s : State) (done : List Nat) (hm : s.mode = .codes done 0) (c : Nat) :
    feed s ((List.intersperse [59] ((c :: cs).map decimal)).flatten ++ [109]) =
      { s with mode := .ground, look := (done ++ c :: cs).foldl select s.look } := by
  induction cs generalizing s done c with
  | nil =>
    simp only [List.map_cons, List.map_nil, List.intersperse_singleton, List.flatten_cons, List.flatten_nil, List.append_nil]
    rw [feed_append, feed_decimal c s done hm]
    rfl
  | cons d ds ih =>
    simp only [List.map_cons, List.intersperse_cons_cons, List.flatten_cons, List.append_assoc]
    rw [feed_append, feed_decimal c s done hm, feed_append]
    have h1 : feed { s with mode := .codes done c } [59] = { s with mode := .codes (done ++ [c]) 0 } := rfl
    rw [h1]
    have h2 := ih { s with mode := .codes (done ++ [c]) 0 } (done ++ [c]) rfl d
    simp only [List.map_cons] at h2
    rw [h2]
    simp

/-- A sequence sets the look. -/
theorem feed_sequence (s : State) (hm : s.mode = .ground) (codes : List Nat) :
    feed s (sequence codes) = { s with look := (if codes = [] then default else codes.foldl select s.look) } := by
  unfold sequence
  rw [List.append_assoc, feed_append]
  have h1 : feed s [27, 91] = { s with mode := .codes [] 0 } := by
    unfold feed
    simp only [List.foldl_cons, List.foldl_nil]
    have : step s 27 = { s with mode := .escape } := by unfold step; rw [hm]; rfl
    rw [this]
    rfl
  rw [h1]
  cases codes with
  | nil =>
    obtain ⟨l, m, sh⟩ := s
    simp only at hm
    subst hm
    rfl
  | cons c cs =>
    rw [feed_codes cs _ [] rfl c]
    rw [if_neg (by simp)]
    obtain ⟨l, m, sh⟩ := s
    simp only at hm
    subst hm
    simp

theorem feed_reset (s : State) (hm : s.mode = .ground) : feed s resetSequence = { s with look := default } := by
  unfold feed resetSequence
  simp only [List.foldl_cons, List.foldl_nil]
  have : step s 27 = { s with mode := .escape } := by unfold step; rw [hm]; rfl
  rw [this]
  obtain ⟨l, m, sh⟩ := s
  simp only at hm
  subst hm
  rfl

/-- Plain text is shown. -/
theorem feed_text (t : Bytes) (ht : NoEscape t) (s : State) (hm : s.mode = .ground) :
    feed s t = { s with shown := s.shown ++ t.map (·, s.look) } := by
  induction t generalizing s with
  | nil => simp [feed]
  | cons c t ih =>
    have hc : c ≠ 27 := ht c (by simp)
    show feed (step s c) t = _
    have : step s c = { s with shown := s.shown ++ [(c, s.look)] } := by unfold step; rw [hm]; simp [hc]
    rw [this, ih (fun x hx => ht x (by simp [hx])) { s with shown := s.shown ++ [(c, s.look)] } hm]
    simp

theorem fgCodes_code (c : Colour) : (if c.code ≠ 0 then fgCodes c.code else []) =
    (if c.bright then [1] else []) ++ (match c.hue with | none => [] | some k => [30 + k.val]) := by
  obtain ⟨h, b⟩ := c
  rcases h with _ | k
  · cases b <;> decide
  · cases b <;> revert k <;> decide

theorem bgCodes_code (c : Colour) : (if c.code ≠ 0 then bgCodes c.code else []) =
    (match c.hue with | none => [] | some k => [if c.bright then 100 + k.val else 90 + k.val]) := by
  obtain ⟨h, b⟩ := c
  rcases h with _ | k
  · cases b <;> decide
  · cases b <;> revert k <;> decide

theorem fg_look (c : Colour) (l : Look) : ((if c.code ≠ 0 then fgCodes c.code else [])).foldl select l = onForeground c l := by
  rw [fgCodes_code]
  obtain ⟨h, b⟩ := c
  rcases h with _ | k
  · cases b <;> rfl
  · have hk := k.isLt
    have : ∀ l : Look, select l (30 + k.val) = { l with fg := some k.val } := by
      intro l
      unfold select
      rw [if_neg (by omega), if_neg (by omega), if_pos ⟨by omega, by omega⟩]
      congr 2
      omega
    cases b
    · exact this l
    · show select (select l 1) _ = _
      rw [this]
      rfl

/-- The text of `color` is shown between the two sequences. -/
theorem feed_color (s : State) (hm : s.mode = .ground) (fg bg : Int) (t : Bytes) (ht : NoEscape t) :
    feed s (color true fg bg t) =
      { look := default, mode := .ground, shown := s.shown ++ t.map (·,
        let codes := (if fg ≠ 0 then fgCodes fg else []) ++ (if bg ≠ 0 then bgCodes bg else [])
        if codes = [] then default else codes.foldl select s.look) } := by
  unfold color
  rw [if_pos rfl]
  unfold setSequence
  obtain ⟨l, m, sh⟩ := s
  simp only at hm
  subst hm
  rw [feed_append, feed_append, feed_sequence _ rfl, feed_text t ht _ rfl, feed_reset _ rfl]

end Msat.Terminal
