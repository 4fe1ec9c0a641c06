import Mathlib.Data.Nat.Bitwise
import Mathlib.Tactic.NormNum
import Verif.Lemmas.Str

/-
C22 URL encoding.
C23 Base64 encoding.
C24 C string escapes.
C56 URL decoding of any string.
C58 Base64 decoding of any string.
-/
namespace Msat.Props
open Msat Str StrSpec

/-! ## C22 -/

theorem strtoul16_hexByte : ∀ c : UInt8, UInt8.ofNat (strtoul16 (hexByte c)) = c :=
  forall_byte (by decide +kernel)

theorem u64sub_small {n m : Nat} (h : m ≤ n) (hn : n < 2 ^ 64) : u64sub n m = n - m := by
  unfold u64sub
  have : n + (2 ^ 64 - m) = (n - m) + 2 ^ 64 := by omega
  rw [this, Nat.add_mod_right, Nat.mod_eq_of_lt (by omega)]

theorem getD_middle (a b : Bytes) (c : UInt8) : (a ++ c :: b).getD a.length 0 = c := by
  simp [List.getD_eq_getElem?_getD]

theorem encodeUrl_cons (c : UInt8) (cs : Bytes) :
    encodeUrl (c :: cs) = (if urlSafe c then [c] else 37 :: hexByte c) ++ encodeUrl cs := by
  simp [encodeUrl]

theorem decodeUrl_encode_aux (t : Bytes) : ∀ pre res : Bytes, (pre ++ encodeUrl t).length < 2 ^ 64 →
    decodeUrlLoop (pre ++ encodeUrl t) res pre.length = res ++ t := by
  induction t with
  | nil =>
    intro pre res _
    rw [decodeUrlLoop, if_neg (by simp [encodeUrl])]
    simp
  | cons c cs ih =>
    intro pre res hl
    rw [encodeUrl_cons] at hl ⊢
    by_cases hs : urlSafe c = true
    · rw [if_pos hs] at hl ⊢
      rw [List.singleton_append] at hl ⊢
      rw [decodeUrlLoop, if_pos (by simp), getD_middle]
      have h37 : c ≠ 37 := by rintro rfl; exact absurd hs (by decide)
      rw [if_neg h37]
      have := ih (pre ++ [c]) (res ++ [c]) (by simpa using hl)
      simpa using this
    · rw [if_neg hs] at hl ⊢
      rw [List.cons_append] at hl ⊢
      rw [decodeUrlLoop, if_pos (by simp), getD_middle, if_pos rfl]
      have hlen : (pre ++ 37 :: (hexByte c ++ encodeUrl cs)).length = pre.length + 3 + (encodeUrl cs).length := by
        simp [hexByte]; omega
      rw [u64sub_small (by rw [hlen]; omega) hl, if_neg (by rw [hlen]; omega)]
      have hsub : StdString.substr (pre ++ 37 :: (hexByte c ++ encodeUrl cs)) (pre.length + 1) 2 = hexByte c := by
        unfold StdString.substr
        rw [show pre ++ 37 :: (hexByte c ++ encodeUrl cs) = (pre ++ [37]) ++ (hexByte c ++ encodeUrl cs) by simp,
          show pre.length + 1 = (pre ++ [37]).length by simp, List.drop_left, show 2 = (hexByte c).length from rfl,
          List.take_left]
      rw [hsub, strtoul16_hexByte]
      have := ih (pre ++ 37 :: hexByte c) (res ++ [c]) (by simpa using hl)
      simpa [hexByte] using this

/-- Decoding an encoded string gives it back. -/
theorem C22_round_trip (s : Bytes) (h : (encodeUrl s).length < 2 ^ 64) : decodeUrl (encodeUrl s) = s := by
  have := decodeUrl_encode_aux s [] [] (by simpa using h)
  simpa [decodeUrl] using this

/-- The encoding contains URL characters only. -/
theorem C22_url_characters (s : Bytes) : ∀ c ∈ encodeUrl s, UrlChar c := by
  intro c hc
  unfold encodeUrl at hc
  obtain ⟨x, _, hx⟩ := List.mem_flatMap.1 hc
  have h : ∀ x : UInt8, ∀ c ∈ (if urlSafe x then [x] else 37 :: hexByte x), UrlChar c :=
    forall_byte (by decide +kernel)
  exact h x c hx

/-- Different strings have different encodings. -/
theorem C22_injective (s t : Bytes) (hs : (encodeUrl s).length < 2 ^ 64) (h : encodeUrl s = encodeUrl t) : s = t := by
  rw [← C22_round_trip s hs, ← C22_round_trip t (by rw [← h]; exact hs), h]

/-- An encoded string is at most three times as long, so that strings that fit in memory can be encoded. -/
theorem C22_length (s : Bytes) : s.length ≤ (encodeUrl s).length ∧ (encodeUrl s).length ≤ 3 * s.length := by
  induction s with
  | nil => simp [encodeUrl]
  | cons c cs ih =>
    rw [encodeUrl_cons, List.length_append, List.length_cons]
    split <;> simp [hexByte] <;> omega

example : encodeUrl (str "a b%é/") = str "a%20b%25%e9%2f" := by decide +kernel
example : decodeUrl (str "a%20b%25%e9%2F") = str "a b%é/" := by decide +kernel

/-! ## C56 -/

theorem decodeUrl_plain_aux (t u : Bytes) : ∀ pre res : Bytes, (∀ c ∈ t, c ≠ 37) →
    decodeUrlLoop (pre ++ (t ++ u)) res pre.length = decodeUrlLoop (pre ++ (t ++ u)) (res ++ t) (pre.length + t.length) := by
  induction t with
  | nil => intro pre res _; simp
  | cons c cs ih =>
    intro pre res h
    rw [decodeUrlLoop, if_pos (by simp), List.cons_append, getD_middle, if_neg (h c (by simp))]
    have := ih (pre ++ [c]) (res ++ [c]) (fun d hd => h d (List.mem_cons_of_mem _ hd))
    simp only [List.append_assoc, List.singleton_append, List.length_append, List.length_cons, List.length_nil,
      Nat.zero_add] at this
    rw [this]
    simp only [List.length_cons]
    congr 1
    omega

/-- Text without escapes is decoded to itself. -/
theorem C56_plain_text (s : Bytes) (h : ∀ c ∈ s, c ≠ 37) : decodeUrl s = s := by
  have := decodeUrl_plain_aux s [] [] [] h
  simp only [List.append_nil, List.nil_append, List.length_nil, Nat.zero_add] at this
  unfold decodeUrl
  rw [this, decodeUrlLoop, if_neg (by omega)]

/-- An escape cut short by the end of the string is ignored, with what has been decoded kept.  For a
string that is a single `%` see below. -/
theorem C56_partial_escape_ignored (s e : Bytes) (h : ∀ c ∈ s, c ≠ 37) (he : e.length < 2) (hs : s ≠ [] ∨ e ≠ [])
    (hl : s.length + 3 < 2 ^ 64) : decodeUrl (s ++ 37 :: e) = s := by
  have := decodeUrl_plain_aux s (37 :: e) [] [] h
  simp only [List.nil_append, List.length_nil, Nat.zero_add] at this
  unfold decodeUrl
  rw [this, decodeUrlLoop, if_pos (by simp), getD_middle, if_pos rfl, u64sub_small]
  · rw [if_pos]
    simp; omega
  · simp
    rcases hs with hs | hs
    · have := List.length_pos_iff.2 hs; omega
    · have := List.length_pos_iff.2 hs; omega
  · simp; omega

/-- A string that is a single `%` is decoded to a NUL character instead of being ignored: `size() - 2`
wraps around. -/
theorem C56_violated_single_percent : decodeUrl [37] = [0] := by decide +kernel

theorem hexValue_digit {c : UInt8} {v : Nat} (h : HexValue c v) : isxdigit c = true ∧ digitValue c = v ∧ isspace c = false ∧ c ≠ 45 ∧ c ≠ 43 ∧ c ≠ 120 ∧ c ≠ 88 := by
  rcases h with ⟨i, hi, rfl, e⟩ | ⟨i, hi, rfl, e⟩ | ⟨i, hi, rfl, e⟩ <;> rw [e]
  · have : ∀ i < 10, isxdigit (UInt8.ofNat (48 + i)) = true ∧ digitValue (UInt8.ofNat (48 + i)) = i ∧ isspace (UInt8.ofNat (48 + i)) = false ∧
      UInt8.ofNat (48 + i) ≠ 45 ∧ UInt8.ofNat (48 + i) ≠ 43 ∧ UInt8.ofNat (48 + i) ≠ 120 ∧ UInt8.ofNat (48 + i) ≠ 88 := by decide +kernel
    exact this i hi
  · have : ∀ i < 6, isxdigit (UInt8.ofNat (65 + i)) = true ∧ digitValue (UInt8.ofNat (65 + i)) = 10 + i ∧ isspace (UInt8.ofNat (65 + i)) = false ∧
      UInt8.ofNat (65 + i) ≠ 45 ∧ UInt8.ofNat (65 + i) ≠ 43 ∧ UInt8.ofNat (65 + i) ≠ 120 ∧ UInt8.ofNat (65 + i) ≠ 88 := by decide +kernel
    exact this i hi
  · have : ∀ i < 6, isxdigit (UInt8.ofNat (97 + i)) = true ∧ digitValue (UInt8.ofNat (97 + i)) = 10 + i ∧ isspace (UInt8.ofNat (97 + i)) = false ∧
      UInt8.ofNat (97 + i) ≠ 45 ∧ UInt8.ofNat (97 + i) ≠ 43 ∧ UInt8.ofNat (97 + i) ≠ 120 ∧ UInt8.ofNat (97 + i) ≠ 88 := by decide +kernel
    exact this i hi

theorem isxdigit_value (c : UInt8) : isxdigit c = true → ∃ v, HexValue c v := by
  have h : isxdigit c = true → (∃ i < 10, c = UInt8.ofNat (48 + i)) ∨ (∃ i < 6, c = UInt8.ofNat (65 + i)) ∨ (∃ i < 6, c = UInt8.ofNat (97 + i)) := by
    revert c
    apply forall_byte
    decide +kernel
  intro k
  rcases h k with ⟨i, hi, e⟩ | ⟨i, hi, e⟩ | ⟨i, hi, e⟩
  · exact ⟨i, .inl ⟨i, hi, e, rfl⟩⟩
  · exact ⟨10 + i, .inr (.inl ⟨i, hi, e, rfl⟩)⟩
  · exact ⟨10 + i, .inr (.inr ⟨i, hi, e, rfl⟩)⟩

theorem strtoul_two {a b : UInt8} {v w : Nat} (ha : HexValue a v) (hb : HexValue b w) : strtoul16 [a, b] = 16 * v + w := by
  obtain ⟨a1, a2, a3, a4, a5, -, -⟩ := hexValue_digit ha
  obtain ⟨b1, b2, -⟩ := hexValue_digit hb
  unfold strtoul16
  simp only [List.dropWhile, a3]
  split
  · rename_i r e; injection e with e; exact absurd e a4
  · rename_i r e; injection e with e; exact absurd e a5
  · simp only [hexDigits, a1, b1, a2, b2, if_true, Nat.zero_mul, Nat.zero_add]
    simp [Nat.mul_comm]

theorem decodeUrl_means_aux {u t : Bytes} (h : UrlMeans u t) : ∀ pre res : Bytes, pre ++ u ≠ [37] → (pre ++ u).length < 2 ^ 64 →
    decodeUrlLoop (pre ++ u) res pre.length = res ++ t := by
  induction h with
  | done => intro pre res _ _; rw [decodeUrlLoop, if_neg (by simp)]; simp
  | @plain c s t hc h ih =>
    intro pre res h1 h2
    rw [decodeUrlLoop, if_pos (by simp), getD_middle, if_neg hc]
    have := ih (pre ++ [c]) (res ++ [c]) (by simpa using h1) (by simpa using h2)
    simpa using this
  | @escape a b v w s t ha hb h ih =>
    intro pre res h1 h2
    have hl : (pre ++ 37 :: a :: b :: s).length = pre.length + s.length + 3 := by simp; omega
    rw [decodeUrlLoop, if_pos (by simp), getD_middle, if_pos rfl, u64sub_small (by omega) (by omega), if_neg (by omega)]
    have e : StdString.substr (pre ++ 37 :: a :: b :: s) (pre.length + 1) 2 = [a, b] := by
      unfold StdString.substr
      rw [show pre ++ 37 :: a :: b :: s = (pre ++ [37]) ++ a :: b :: s by simp, List.drop_left' (by simp)]
      rfl
    rw [e, strtoul_two ha hb]
    have := ih (pre ++ [37, a, b]) (res ++ [UInt8.ofNat (16 * v + w)]) (by intro e; have := congrArg List.length e; simp at this; omega) (by simpa using h2)
    simpa using this
  | @short e he =>
    intro pre res h1 h2
    have hl : (pre ++ 37 :: e).length = pre.length + e.length + 1 := by simp; omega
    have hp : 2 ≤ (pre ++ 37 :: e).length := by
      by_contra hc
      apply h1
      have p0 : pre = [] := List.eq_nil_of_length_eq_zero (by omega)
      have e0 : e = [] := List.eq_nil_of_length_eq_zero (by omega)
      rw [p0, e0]; rfl
    rw [decodeUrlLoop, if_pos (by simp), getD_middle, if_pos rfl, u64sub_small hp (by omega), if_pos (by omega)]
    simp

/-- Every text whose escapes have hexadecimal digits, in upper or lower case, is decoded to what it stands for.  Missing for C56: a text that is
a single `%` (see `C56_violated_single_percent`), and escapes with other characters (see `C56_violated_sign`). -/
theorem C56_meaning_partial (s t : Bytes) (h : UrlMeans s t) (h1 : s ≠ [37]) (h2 : s.length < 2 ^ 64) : decodeUrl s = t := by
  have := decodeUrl_means_aux h [] [] (by simpa using h1) (by simpa using h2)
  unfold decodeUrl
  simpa using this

example : UrlMeans (str "a%2Fb%e9%") [97, 47, 98, 233] :=
  .plain (by decide) (.escape (v := 2) (w := 15) (.inl ⟨2, by decide, rfl, rfl⟩) (.inr (.inl ⟨5, by decide, rfl, rfl⟩)) (.plain (by decide)
    (.escape (v := 14) (w := 9) (.inr (.inr ⟨4, by decide, rfl, rfl⟩)) (.inl ⟨9, by decide, rfl, rfl⟩) (.short (by decide)))))

/-- Discrepancy: `%-` and a digit is not an escape, but it is taken for a negative number: `%-1` is the byte 255. -/
theorem C56_violated_sign (d : UInt8) (v : Nat) (h : HexValue d v) (hv : 0 < v) : decodeUrl [37, 45, d] = [UInt8.ofNat (256 - v)] := by
  rcases h with ⟨i, hi, rfl, rfl⟩ | ⟨i, hi, rfl, rfl⟩ | ⟨i, hi, rfl, rfl⟩
  · have : ∀ i < 10, 0 < i → decodeUrl [37, 45, UInt8.ofNat (48 + i)] = [UInt8.ofNat (256 - i)] := by decide +kernel
    exact this _ hi hv
  · have : ∀ i < 6, decodeUrl [37, 45, UInt8.ofNat (65 + i)] = [UInt8.ofNat (256 - (10 + i))] := by decide +kernel
    exact this _ hi
  · have : ∀ i < 6, decodeUrl [37, 45, UInt8.ofNat (97 + i)] = [UInt8.ofNat (256 - (10 + i))] := by decide +kernel
    exact this _ hi

example : HexValue 49 1 ∧ decodeUrl (str "%-1") = [255] := ⟨.inl ⟨1, by decide, rfl, rfl⟩, by decide +kernel⟩

/-- Discrepancy: an escape whose first character is not a digit stands for the byte 0, with which C strings end. -/
theorem C56_violated_nul (c d : UInt8) (h0 : ∀ v, ¬ HexValue c v) (h2 : c ≠ 32 ∧ ¬ (9 ≤ c ∧ c ≤ 13)) (h3 : c ≠ 45 ∧ c ≠ 43) : decodeUrl [37, c, d] = [0] := by
  have h1 : isxdigit c = false := by
    rw [Bool.eq_false_iff]
    intro k
    obtain ⟨v, hv⟩ := isxdigit_value c k
    exact h0 v hv
  have hs : isspace c = false := by
    unfold isspace
    rw [Bool.or_eq_false_iff, beq_eq_false_iff_ne]
    refine ⟨h2.1, ?_⟩
    rw [Bool.eq_false_iff]
    intro k
    rw [Bool.and_eq_true, decide_eq_true_iff, decide_eq_true_iff] at k
    exact h2.2 k
  have hu : strtoul16 [c, d] = 0 := by
    unfold strtoul16
    simp only [List.dropWhile, hs]
    split
    · rename_i r e; injection e with e; exact absurd e h3.1
    · rename_i r e; injection e with e; exact absurd e h3.2
    · simp [hexDigits, h1]
  have e0 : decodeUrlLoop [37, c, d] [UInt8.ofNat 0] 3 = [0] := by
    rw [decodeUrlLoop, if_neg (by simp)]
    rfl
  unfold decodeUrl
  rw [decodeUrlLoop, if_pos (by simp), if_pos (show ([37, c, d] : Bytes).getD 0 0 = 37 from rfl),
    if_neg (show ¬ u64sub ([37, c, d] : Bytes).length 2 ≤ 0 by simp only [List.length_cons, List.length_nil]; decide)]
  show decodeUrlLoop [37, c, d] ([] ++ [UInt8.ofNat (strtoul16 [c, d])]) 3 = [0]
  rw [hu]
  exact e0

example : (∀ v, ¬ HexValue 122 v) ∧ ((122 : UInt8) ≠ 32 ∧ ¬ ((9 : UInt8) ≤ 122 ∧ (122 : UInt8) ≤ 13)) ∧ ((122 : UInt8) ≠ 45 ∧ (122 : UInt8) ≠ 43) := by
  refine ⟨fun v h => ?_, by decide⟩
  have := (hexValue_digit h).1
  exact absurd this (by decide)

example : decodeUrl (str "ab%4") = str "ab" := by decide +kernel

/-! ## C24 -/

theorem decodeCLoop_encode (s : Bytes) : ∀ res t : Bytes,
    decodeCLoop res (encodeCString s ++ t)
      = decodeCLoop (res ++ s.map (fun c => if iscntrl c && c != 10 && c != 9 then 0 else c)) t := by
  induction s with
  | nil => intro res t; simp [encodeCString]
  | cons c cs ih =>
    intro res t
    have e : encodeCString (c :: cs) ++ t = encodeCChar c ++ (encodeCString cs ++ t) := by
      simp [encodeCString]
    rw [e, List.map_cons]
    have step : decodeCLoop res (encodeCChar c ++ (encodeCString cs ++ t))
        = decodeCLoop (res ++ [if iscntrl c && c != 10 && c != 9 then 0 else c]) (encodeCString cs ++ t) := by
      generalize encodeCString cs ++ t = u
      unfold encodeCChar
      split
      · rename_i h; subst h; rw [show [92, 110] ++ u = 92 :: 110 :: u from rfl, decodeCLoop]; simp [iscntrl]
      · split
        · rename_i h; subst h; rw [show [92, 116] ++ u = 92 :: 116 :: u from rfl, decodeCLoop]; simp [iscntrl]
        · rename_i h10 h9
          split
          · rename_i h
            have hx : takeHex (hexByte c ++ u) = hexByte c := by
              have : ∀ c : UInt8, (hexByte c).takeWhile isxdigit = hexByte c := forall_byte (by decide +kernel)
              unfold takeHex
              rw [show (hexByte c ++ u).take 2 = hexByte c by simp [hexByte], this]
            have h0 : ∀ c : UInt8, UInt8.ofNat (decDigits 0 ([48, 120] ++ hexByte c)) = 0 :=
              forall_byte (by decide +kernel)
            rw [show [92, 120] ++ hexByte c ++ u = 92 :: 120 :: (hexByte c ++ u) by simp, decodeCLoop,
              if_neg (by decide), if_pos rfl]
            simp only [hx, h0, List.drop_left]
            have hc : (iscntrl c && c != 10 && c != 9) = true := by
              rcases h with h | h
              · subst h; decide
              · simp [h, h10, h9]
            rw [if_pos hc]
          · rename_i h
            have hc : iscntrl c = false := by simpa using fun hx => h (Or.inr hx)
            split
            · rename_i hq
              rcases hq with hq | hq <;> subst hq
              · rw [show [92, 34] ++ u = 92 :: 34 :: u from rfl, decodeCLoop.eq_def]; simp [iscntrl]
              · rw [show [92, 92] ++ u = 92 :: 92 :: u from rfl, decodeCLoop.eq_def]; simp [iscntrl]
            · rename_i hq
              rw [show [c] ++ u = c :: u from rfl, decodeCLoop.eq_def]
              dsimp only
              rw [if_neg (fun x => hq (Or.inl x)),
                if_neg (fun x => hq (Or.inr x))]
              simp [hc]
    rw [step, ih]
    simp

/-- Decoding an encoded string gives it back with the control characters, other than line feed and tab,
replaced by NUL; the length parsed is the length of the encoded string. -/
theorem C24_decode_encode (s : Bytes) : decodeCString (encodeCString s)
    = (s.map (fun c => if iscntrl c && c != 10 && c != 9 then 0 else c), (encodeCString s).length) := by
  have h := decodeCLoop_encode s [] []
  rw [List.append_nil, List.nil_append] at h
  unfold decodeCString
  rw [h, decodeCLoop]
  simp

/-- The round trip, for the strings without control characters other than line feed, tab and NUL.  The
full property, for all strings, does not hold: see below. -/
theorem C24_round_trip_partial (s : Bytes) (h : ∀ c ∈ s, 32 ≤ c ∧ c ≠ 127 ∨ c = 10 ∨ c = 9 ∨ c = 0) :
    decodeCString (encodeCString s) = (s, (encodeCString s).length) := by
  rw [C24_decode_encode]
  have hc : ∀ c : UInt8, (32 ≤ c ∧ c ≠ 127 ∨ c = 10 ∨ c = 9 ∨ c = 0) →
      (if iscntrl c && c != 10 && c != 9 then 0 else c) = c := forall_byte (by decide +kernel)
  rw [List.map_congr_left (fun c hm => hc c (h c hm)), List.map_id']

/-- Every other control character is lost. -/
theorem C24_violated_control_characters : decodeCString (encodeCString [27]) = ([0], 4) := by decide +kernel

/-- Decoding stops at the closing quote, which is counted in the length, whatever follows. -/
theorem C24_quoted (s rest : Bytes) : decodeCString (encodeCString s ++ 34 :: rest)
    = (s.map (fun c => if iscntrl c && c != 10 && c != 9 then 0 else c), (encodeCString s).length + 1) := by
  have h := decodeCLoop_encode s [] (34 :: rest)
  rw [List.nil_append] at h
  unfold decodeCString
  rw [h, decodeCLoop.eq_def]
  simp
  omega

/-- The encoding has no control characters: it can be printed on one line. -/
theorem C24_printable (s : Bytes) : ∀ c ∈ encodeCString s, ¬ c < 32 ∧ c ≠ 127 := by
  intro c hc
  unfold encodeCString at hc
  obtain ⟨x, _, hx⟩ := List.mem_flatMap.1 hc
  have h : ∀ x : UInt8, ∀ c ∈ encodeCChar x, ¬ c < 32 ∧ c ≠ 127 := forall_byte (by decide +kernel)
  exact h x c hx

example : encodeCString (str "a\"b\n\\") = str "a\\\"b\\n\\\\" := by decide +kernel
example : decodeCString (str "a\\\"b\\n\" tail") = (str "a\"b\n", 7) := by decide +kernel

/-! ## C23 -/

/-- The character of a six bit number. -/
def b64 (n : Nat) : UInt8 := base64.getD n 0

theorem invbase64_b64 (n : Nat) (h : n < 64) : invbase64 (b64 n) = .ok n := by
  have : ∀ n : Fin 64, invbase64 (b64 n) = .ok n.val := by decide +kernel
  exact this ⟨n, h⟩

theorem b64_ne (n : Nat) (h : n < 64) : b64 n ≠ 61 := by
  have : ∀ n : Fin 64, b64 n ≠ 61 := by decide +kernel
  exact this ⟨n, h⟩

theorem b64_char (n : Nat) (h : n < 64) : Base64Char (b64 n) := by
  have : ∀ n : Fin 64, Base64Char (b64 n) := by decide +kernel
  exact this ⟨n, h⟩

theorem pack3 (a b c : Nat) (_ : a < 256) (hb : b < 256) (hc : c < 256) :
    a <<< 16 ||| b <<< 8 ||| c = a * 65536 + b * 256 + c := by
  rw [← Nat.shiftLeft_add_eq_or_of_lt (show b <<< 8 < 2 ^ 16 by rw [Nat.shiftLeft_eq]; omega)]
  rw [show a <<< 16 + b <<< 8 = (a * 256 + b) <<< 8 by simp only [Nat.shiftLeft_eq]; omega]
  rw [← Nat.shiftLeft_add_eq_or_of_lt (show c < 2 ^ 8 by omega)]
  simp only [Nat.shiftLeft_eq]; omega

theorem pack2 (a b : Nat) (hb : b < 256) : a <<< 16 ||| b <<< 8 = a * 65536 + b * 256 := by
  rw [← Nat.shiftLeft_add_eq_or_of_lt (show b <<< 8 < 2 ^ 16 by rw [Nat.shiftLeft_eq]; omega)]
  simp only [Nat.shiftLeft_eq]

theorem and63 (n : Nat) : n &&& 63 = n % 64 := Nat.and_two_pow_sub_one_eq_mod n 6
theorem and255 (n : Nat) : n &&& 255 = n % 256 := Nat.and_two_pow_sub_one_eq_mod n 8

/-- The four characters of 24 bits. -/
def quad (e : Nat) : Bytes := [b64 (e / 262144 % 64), b64 (e / 4096 % 64), b64 (e / 64 % 64), b64 (e % 64)]

theorem quad_eq (e : Nat) : [18, 12, 6, 0].map (fun j => base64.getD (e >>> j &&& 63) 0) = quad e := by
  simp only [List.map_cons, List.map_nil, and63, Nat.shiftRight_eq_div_pow, quad, b64]
  norm_num

theorem encodeTriplet_three (a b c : UInt8) (r : Bytes) :
    encodeTriplet (a :: b :: c :: r) = quad (a.toNat * 65536 + b.toNat * 256 + c.toNat) := by
  unfold encodeTriplet
  have h := pack3 a.toNat b.toNat c.toNat a.toNat_lt b.toNat_lt c.toNat_lt
  cases r with
  | nil =>
    simp only [List.length_cons, List.length_nil, List.getD_cons_zero, List.getD_cons_succ]
    rw [if_neg (by omega), if_pos (by omega), if_pos (by omega), h, quad_eq]
  | cons d r =>
    simp only [List.length_cons, List.getD_cons_zero, List.getD_cons_succ]
    rw [if_pos (by omega), h, quad_eq]

theorem encodeTriplet_two (a b : UInt8) : encodeTriplet [a, b] = quad (a.toNat * 65536 + b.toNat * 256) := by
  unfold encodeTriplet
  simp only [List.length_cons, List.length_nil, List.getD_cons_zero, List.getD_cons_succ]
  rw [if_neg (show ¬ 3 < 0 + 1 + 1 by omega), if_pos (show 1 < 0 + 1 + 1 by omega),
    if_neg (show ¬ 2 < 0 + 1 + 1 by omega), pack2 _ _ b.toNat_lt, quad_eq]

theorem encodeTriplet_one (a : UInt8) : encodeTriplet [a] = quad (a.toNat * 65536) := by
  unfold encodeTriplet
  simp only [List.length_cons, List.length_nil, List.getD_cons_zero]
  rw [if_neg (by omega), if_neg (by omega), if_neg (by omega), quad_eq, Nat.shiftLeft_eq]

/-- The encoding, with its padding, triplet by triplet. -/
def enc : Bytes → Bytes
  | [] => []
  | [a] => (quad (a.toNat * 65536)).take 2 ++ [61, 61]
  | [a, b] => (quad (a.toNat * 65536 + b.toNat * 256)).take 3 ++ [61]
  | a :: b :: c :: r => quad (a.toNat * 65536 + b.toNat * 256 + c.toNat) ++ enc r

/-- Recursion over triplets. -/
@[elab_as_elim] theorem triplets {P : Bytes → Prop} (h0 : P []) (h1 : ∀ a, P [a]) (h2 : ∀ a b, P [a, b])
    (h3 : ∀ a b c r, P r → P (a :: b :: c :: r)) : ∀ s, P s
  | [] => h0
  | [a] => h1 a
  | [a, b] => h2 a b
  | a :: b :: c :: r => h3 a b c r (triplets h0 h1 h2 h3 r)

def pad : Nat → Bytes → Bytes
  | 1, r => (r.set (r.length - 1) 61).set (r.length - 2) 61
  | 2, r => r.set (r.length - 1) 61
  | _, r => r

theorem encodeBase64_pad (s : Bytes) : encodeBase64 s = pad (s.length % 3) (encodeTriplets s) := by
  unfold encodeBase64
  have : s.length % 3 < 3 := Nat.mod_lt _ (by decide)
  rcases (by omega : s.length % 3 = 0 ∨ s.length % 3 = 1 ∨ s.length % 3 = 2) with h | h | h <;> rw [h]
  · rfl
  · simp [pad, List.range_succ]
    rfl
  · simp [pad, List.range_succ]

theorem encodeTriplets_cons3 (a b c : UInt8) (r : Bytes) :
    encodeTriplets (a :: b :: c :: r) = quad (a.toNat * 65536 + b.toNat * 256 + c.toNat) ++ encodeTriplets r := by
  rw [encodeTriplets, if_neg (by simp), encodeTriplet_three]; rfl

theorem encodeTriplets_length (s : Bytes) : (encodeTriplets s).length = (s.length + 2) / 3 * 4 := by
  refine triplets ?_ ?_ ?_ ?_ s
  · rw [encodeTriplets]; rfl
  · intro a; rw [encodeTriplets, if_neg (by simp), encodeTriplet_one]
    rw [show List.drop 3 [a] = [] from rfl, encodeTriplets, if_pos rfl]; simp [quad]
  · intro a b; rw [encodeTriplets, if_neg (by simp), encodeTriplet_two]
    rw [show List.drop 3 [a, b] = [] from rfl, encodeTriplets, if_pos rfl]; simp [quad]
  · intro a b c r ih
    rw [encodeTriplets_cons3, List.length_append, ih]
    simp only [quad, List.length_cons, List.length_nil]
    omega

theorem set_append_right (q t : Bytes) (k : Nat) (h : k < t.length) :
    (q ++ t).set ((q ++ t).length - (t.length - k)) 61 = q ++ t.set k 61 := by
  rw [List.length_append, show q.length + t.length - (t.length - k) = q.length + k by omega,
    List.set_append_right _ _ (by omega)]
  simp

theorem pad_append (n : Nat) (q t : Bytes) (h : 2 ≤ t.length) : pad n (q ++ t) = q ++ pad n t := by
  unfold pad
  split
  · have e1 := set_append_right q t (t.length - 1) (by omega)
    rw [show t.length - (t.length - 1) = 1 by omega] at e1
    rw [e1]
    have e2 := set_append_right q (t.set (t.length - 1) 61) (t.length - 2) (by rw [List.length_set]; omega)
    rw [List.length_set, show t.length - (t.length - 2) = 2 by omega] at e2
    rw [← e2]
    congr 1
    simp
  · have e1 := set_append_right q t (t.length - 1) (by omega)
    rw [show t.length - (t.length - 1) = 1 by omega] at e1
    rw [e1]
  · rfl

theorem encodeBase64_eq (s : Bytes) : encodeBase64 s = enc s := by
  rw [encodeBase64_pad]
  refine triplets ?_ ?_ ?_ ?_ s
  · rw [encodeTriplets]; rfl
  · intro a; rw [encodeTriplets, if_neg (by simp), encodeTriplet_one]
    rw [show List.drop 3 [a] = [] from rfl, encodeTriplets, if_pos rfl]; rfl
  · intro a b; rw [encodeTriplets, if_neg (by simp), encodeTriplet_two]
    rw [show List.drop 3 [a, b] = [] from rfl, encodeTriplets, if_pos rfl]; rfl
  · intro a b c r ih
    rw [encodeTriplets_cons3, show (a :: b :: c :: r).length % 3 = r.length % 3 by
      simp only [List.length_cons]; omega]
    rw [enc, ← ih]
    by_cases hr : r = []
    · subst hr; rw [encodeTriplets]; rfl
    · have := List.length_pos_iff.2 hr
      exact pad_append _ _ _ (by rw [encodeTriplets_length]; omega)

theorem decodeQuad_four (w x y z : UInt8) (r : Bytes) (i j k l : Nat) (hw : invbase64 w = .ok i)
    (hx : invbase64 x = .ok j) (hy : invbase64 y = .ok k) (hz : invbase64 z = .ok l) :
    decodeQuad (w :: x :: y :: z :: r) = .ok (i * 262144 + j * 4096 + k * 64 + l) := by
  unfold decodeQuad
  simp only [List.getD_cons_zero, List.getD_cons_succ, hw, hx, hy, hz, Outcome.ok_bind, Outcome.pure_eq,
    Nat.shiftLeft_eq, List.length_cons]
  cases r with
  | nil => simp
  | cons d r =>
    rw [if_pos (by simp)]

theorem decodeQuads_cons (w x y z : UInt8) (r : Bytes) (i j k l : Nat) (hw : invbase64 w = .ok i)
    (hx : invbase64 x = .ok j) (hy : invbase64 y = .ok k) (hz : invbase64 z = .ok l) (out : Bytes)
    (hr : decodeQuads r = .ok out) :
    decodeQuads (w :: x :: y :: z :: r) = .ok ([UInt8.ofNat ((i * 262144 + j * 4096 + k * 64 + l) / 65536 % 256),
      UInt8.ofNat ((i * 262144 + j * 4096 + k * 64 + l) / 256 % 256),
      UInt8.ofNat ((i * 262144 + j * 4096 + k * 64 + l) % 256)] ++ out) := by
  rw [decodeQuads, if_neg (by simp), decodeQuad_four w x y z r i j k l hw hx hy hz]
  rw [show List.drop 4 (w :: x :: y :: z :: r) = r from rfl, hr]
  simp only [Outcome.ok_bind, Outcome.pure_eq, and255, Nat.shiftRight_eq_div_pow]

theorem decodeQuads_nil : decodeQuads [] = .ok [] := by rw [decodeQuads, if_pos rfl]

/-- Zero bytes decoded in place of the padding. -/
def padding (n : Nat) : Nat := (3 - n % 3) % 3

theorem inv61 : invbase64 61 = .ok 0 := by decide +kernel

theorem decodeQuads_enc (s : Bytes) : decodeQuads (enc s) = .ok (s ++ List.replicate (padding s.length) 0) := by
  refine triplets ?_ ?_ ?_ ?_ s
  · rw [enc, decodeQuads_nil]; rfl
  · intro a
    have := a.toNat_lt
    rw [show enc [a] = [b64 (a.toNat * 65536 / 262144 % 64), b64 (a.toNat * 65536 / 4096 % 64), 61, 61] from rfl]
    rw [decodeQuads_cons _ _ _ _ _ _ _ _ _ (invbase64_b64 _ (by omega)) (invbase64_b64 _ (by omega)) inv61 inv61 _
      decodeQuads_nil]
    congr 1
    rw [show padding [a].length = 2 from rfl, show List.replicate 2 (0 : UInt8) = [0, 0] from rfl, List.append_nil]
    simp only [List.singleton_append]
    congr 1
    · rw [show (a.toNat * 65536 / 262144 % 64 * 262144 + a.toNat * 65536 / 4096 % 64 * 4096 + 0 * 64 + 0) / 65536 % 256
        = a.toNat by omega]; simp
    · congr 1
      · rw [show (a.toNat * 65536 / 262144 % 64 * 262144 + a.toNat * 65536 / 4096 % 64 * 4096 + 0 * 64 + 0) / 256 % 256
          = 0 by omega]; rfl
      · rw [show (a.toNat * 65536 / 262144 % 64 * 262144 + a.toNat * 65536 / 4096 % 64 * 4096 + 0 * 64 + 0) % 256
          = 0 by omega]; rfl
  · intro a b
    have := a.toNat_lt
    have := b.toNat_lt
    rw [show enc [a, b] = [b64 ((a.toNat * 65536 + b.toNat * 256) / 262144 % 64),
      b64 ((a.toNat * 65536 + b.toNat * 256) / 4096 % 64), b64 ((a.toNat * 65536 + b.toNat * 256) / 64 % 64), 61] from rfl]
    rw [decodeQuads_cons _ _ _ _ _ _ _ _ _ (invbase64_b64 _ (by omega)) (invbase64_b64 _ (by omega))
      (invbase64_b64 _ (by omega)) inv61 _ decodeQuads_nil]
    congr 1
    rw [show padding [a, b].length = 1 from rfl, show List.replicate 1 (0 : UInt8) = [0] from rfl, List.append_nil]
    generalize hx : (a.toNat * 65536 + b.toNat * 256) / 262144 % 64 * 262144 +
      (a.toNat * 65536 + b.toNat * 256) / 4096 % 64 * 4096 + (a.toNat * 65536 + b.toNat * 256) / 64 % 64 * 64 + 0 = x
    rw [show x / 65536 % 256 = a.toNat by omega, show x / 256 % 256 = b.toNat by omega, show x % 256 = 0 by omega]
    simp
  · intro a b c r ih
    have := a.toNat_lt
    have := b.toNat_lt
    have := c.toNat_lt
    rw [enc, show padding (a :: b :: c :: r).length = padding r.length by
      simp only [padding, List.length_cons]; omega]
    generalize he : a.toNat * 65536 + b.toNat * 256 + c.toNat = e
    rw [show quad e ++ enc r = b64 (e / 262144 % 64) :: b64 (e / 4096 % 64) :: b64 (e / 64 % 64) :: b64 (e % 64) :: enc r
      from rfl]
    rw [decodeQuads_cons _ _ _ _ _ _ _ _ _ (invbase64_b64 _ (by omega)) (invbase64_b64 _ (by omega))
      (invbase64_b64 _ (by omega)) (invbase64_b64 _ (by omega)) _ ih]
    generalize hx : e / 262144 % 64 * 262144 + e / 4096 % 64 * 4096 + e / 64 % 64 * 64 + e % 64 = x
    rw [show x / 65536 % 256 = a.toNat by omega, show x / 256 % 256 = b.toNat by omega,
      show x % 256 = c.toNat by omega]
    simp

theorem enc_end (s : Bytes) (h : s ≠ []) : ∃ (pre : Bytes) (w x y z : UInt8), enc s = pre ++ [w, x, y, z] ∧ x ≠ 61 ∧
    (s.length % 3 = 0 → z ≠ 61) ∧ (s.length % 3 = 1 → y = 61 ∧ z = 61) ∧ (s.length % 3 = 2 → y ≠ 61 ∧ z = 61) := by
  revert h
  refine triplets ?_ ?_ ?_ ?_ s
  · intro h; exact absurd rfl h
  · intro a _
    exact ⟨[], _, _, 61, 61, rfl, b64_ne _ (Nat.mod_lt _ (by decide)), by simp, by simp, by simp⟩
  · intro a b _
    exact ⟨[], _, _, _, 61, rfl, b64_ne _ (Nat.mod_lt _ (by decide)), by simp, by simp,
      fun _ => ⟨b64_ne _ (Nat.mod_lt _ (by decide)), rfl⟩⟩
  · intro a b c r ih _
    rw [enc, show (a :: b :: c :: r).length % 3 = r.length % 3 by simp only [List.length_cons]; omega]
    by_cases hr : r = []
    · subst hr
      exact ⟨[], _, _, _, _, rfl, b64_ne _ (Nat.mod_lt _ (by decide)),
        fun _ => b64_ne _ (Nat.mod_lt _ (by decide)), by simp, by simp⟩
    · obtain ⟨pre, w, x, y, z, e, h⟩ := ih hr
      exact ⟨quad (a.toNat * 65536 + b.toNat * 256 + c.toNat) ++ pre, w, x, y, z, by rw [e, List.append_assoc], h⟩

theorem unpad_stop (s res : Bytes) (i : Nat) (h : s.getD i 0 ≠ 61) : unpad s res i = res := by
  cases i <;> simp only [unpad, if_neg h]

theorem unpad_step (s res : Bytes) (c : UInt8) (i : Nat) (h : s.getD (i + 1) 0 = 61) (hr : res ≠ []) :
    unpad s (res ++ [c]) (i + 1) = unpad s res i := by
  have hd : dropLast1 (res ++ [c]) = res := by
    unfold dropLast1
    simp
  rw [unpad, if_pos h, hd, if_neg (by simpa using hr)]

/-- Decoding an encoded string gives it back. -/
theorem C23_round_trip (s : Bytes) : decodeBase64 (encodeBase64 s) = .ok s := by
  rw [encodeBase64_eq]
  unfold decodeBase64
  rw [decodeQuads_enc]
  simp only [Outcome.ok_bind, Outcome.pure_eq]
  by_cases hs : s = []
  · subst hs; rfl
  · obtain ⟨pre, w, x, y, z, e, hx, h0, h1, h2⟩ := enc_end s hs
    rw [e]
    have hl : (pre ++ [w, x, y, z]).length = pre.length + 4 := by simp
    have hg1 : (pre ++ [w, x, y, z]).getD (pre.length + 3) 0 = z := by simp [List.getD_eq_getElem?_getD]
    have hg2 : (pre ++ [w, x, y, z]).getD (pre.length + 2) 0 = y := by simp [List.getD_eq_getElem?_getD]
    have hg3 : (pre ++ [w, x, y, z]).getD (pre.length + 1) 0 = x := by simp [List.getD_eq_getElem?_getD]
    rw [if_pos (by omega), hl, show pre.length + 4 - 1 = pre.length + 2 + 1 by omega]
    congr 1
    rcases (by omega : s.length % 3 = 0 ∨ s.length % 3 = 1 ∨ s.length % 3 = 2) with h | h | h
    · rw [show padding s.length = 0 by unfold padding; rw [h]]
      rw [unpad_stop _ _ _ (by rw [hg1]; exact h0 h)]
      simp
    · rw [show padding s.length = 2 by unfold padding; rw [h]]
      rw [show s ++ List.replicate 2 0 = (s ++ [0]) ++ [0] by simp,
        unpad_step _ _ _ _ (by rw [hg1]; exact (h1 h).2) (by simp),
        unpad_step _ _ _ _ (by rw [hg2]; exact (h1 h).1) hs, unpad_stop _ _ _ (by rw [hg3]; exact hx)]
    · rw [show padding s.length = 1 by unfold padding; rw [h]]
      rw [show s ++ List.replicate 1 0 = s ++ [0] from rfl,
        unpad_step _ _ _ _ (by rw [hg1]; exact (h2 h).2) hs, unpad_stop _ _ _ (by rw [hg2]; exact (h2 h).1)]

/-- The encoding of `n` bytes has four characters for each group of up to three bytes. -/
theorem C23_length (s : Bytes) : (encodeBase64 s).length = 4 * ((s.length + 2) / 3) := by
  rw [encodeBase64_pad]
  have : ∀ n (r : Bytes), (pad n r).length = r.length := by
    intro n r; unfold pad; split <;> simp
  rw [this, encodeTriplets_length, Nat.mul_comm]

/-- The encoding uses the base64 alphabet only. -/
theorem C23_alphabet (s : Bytes) : ∀ c ∈ encodeBase64 s, Base64Char c := by
  rw [encodeBase64_eq]
  have hq : ∀ e, ∀ c ∈ quad e, Base64Char c := by
    intro e c hc
    simp only [quad, List.mem_cons, List.not_mem_nil, or_false] at hc
    rcases hc with rfl | rfl | rfl | rfl <;> exact b64_char _ (Nat.mod_lt _ (by decide))
  refine triplets ?_ ?_ ?_ ?_ s
  · intro c hc; cases hc
  · intro a c hc
    rcases List.mem_append.1 hc with h | h
    · exact hq _ c (List.mem_of_mem_take h)
    · simp only [List.mem_cons, List.not_mem_nil, or_false, or_self] at h; subst h; decide
  · intro a b c hc
    rcases List.mem_append.1 hc with h | h
    · exact hq _ c (List.mem_of_mem_take h)
    · simp only [List.mem_cons, List.not_mem_nil, or_false] at h; subst h; decide
  · intro a b c r ih d hd
    rcases List.mem_append.1 hd with h | h
    · exact hq _ d h
    · exact ih d h

/-- Different strings have different encodings. -/
theorem C23_injective (s t : Bytes) (h : encodeBase64 s = encodeBase64 t) : s = t := by
  have := C23_round_trip s
  rw [h, C23_round_trip t] at this
  cases this; rfl

/-- Decoding a string that contains `{` reads outside of a table. -/
theorem C58_violated_brace : decodeBase64 (str "{") = .ub := by decide +kernel

/-- Without `{` decoding any string is safe. -/
theorem C58_decode_safe_partial (s : Bytes) (h : ∀ c ∈ s, c ≠ 123) : ∃ r, decodeBase64 s = .ok r := by
  have hi : ∀ c : UInt8, c ≠ 123 → ∃ n, invbase64 c = .ok n := by
    have : ∀ c : UInt8, c ≠ 123 → ∃ n : Fin 64, invbase64 c = .ok n.val := forall_byte (by decide +kernel)
    intro c hc
    obtain ⟨n, h⟩ := this c hc
    exact ⟨n.val, h⟩
  have hq : ∀ n, ∀ s : Bytes, s.length ≤ n → (∀ c ∈ s, c ≠ 123) → ∃ r, decodeQuads s = .ok r := by
    intro n
    induction n with
    | zero => intro s hs _; rw [List.eq_nil_of_length_eq_zero (l := s) (by omega)]; exact ⟨[], decodeQuads_nil⟩
    | succ n ih =>
      intro s hs h
      by_cases h0 : s = []
      · subst h0; exact ⟨[], decodeQuads_nil⟩
      · have hg : ∀ i, ∃ n, invbase64 (s.getD i 0) = .ok n := by
          intro i
          by_cases hi' : i < s.length
          · rw [getD_eq hi']; exact hi _ (h _ (List.getElem_mem hi'))
          · rw [List.getD_eq_getElem?_getD, List.getElem?_eq_none (by omega)]; exact hi 0 (by decide)
        obtain ⟨a, ha⟩ := hg 0
        obtain ⟨b, hb⟩ := hg 1
        obtain ⟨c, hc⟩ := hg 2
        obtain ⟨d, hd⟩ := hg 3
        have hdq : ∃ e, decodeQuad s = .ok e := by
          unfold decodeQuad
          simp only [ha, hb, hc, hd, Outcome.ok_bind, Outcome.pure_eq]
          split
          · exact ⟨_, rfl⟩
          · by_cases h1 : 1 < s.length <;> by_cases h2 : 2 < s.length <;> by_cases h3 : 3 < s.length <;>
              simp only [h1, h2, h3, if_true, if_false] <;> exact ⟨_, rfl⟩
        obtain ⟨e, he⟩ := hdq
        have := List.length_pos_iff.2 h0
        obtain ⟨r, hr⟩ := ih (s.drop 4) (by rw [List.length_drop]; omega) (fun c hc => h c (List.mem_of_mem_drop hc))
        rw [decodeQuads, if_neg h0, he, hr]
        exact ⟨_, rfl⟩
  obtain ⟨r, hr⟩ := hq s.length s (Nat.le_refl _) h
  unfold decodeBase64
  rw [hr]
  simp only [Outcome.ok_bind, Outcome.pure_eq]
  split <;> exact ⟨_, rfl⟩

example : encodeBase64 (str "hello") = str "aGVsbG8=" := by decide +kernel
example : decodeBase64 (str "aGVsbG8=") = .ok (str "hello") := by decide +kernel

/-! What is decoded of texts that are no base64. -/

theorem decodeQuad_pad (t : Bytes) (h : t.length % 4 ≠ 0) : decodeQuad (t ++ [61]) = decodeQuad t := by
  rcases t with _ | ⟨a, _ | ⟨b, _ | ⟨c, _ | ⟨d, _ | ⟨e, t⟩⟩⟩⟩⟩
  · exact absurd rfl h
  · unfold decodeQuad
    simp only [List.cons_append, List.nil_append, List.length_cons, List.length_nil, List.getD_cons_zero, List.getD_cons_succ]
    cases invbase64 a <;> simp [inv61]
  · unfold decodeQuad
    simp only [List.cons_append, List.nil_append, List.length_cons, List.length_nil, List.getD_cons_zero, List.getD_cons_succ]
    cases invbase64 a <;> cases invbase64 b <;> simp [inv61]
  · unfold decodeQuad
    simp only [List.cons_append, List.nil_append, List.length_cons, List.length_nil, List.getD_cons_zero, List.getD_cons_succ]
    cases invbase64 a <;> cases invbase64 b <;> cases invbase64 c <;> simp [inv61]
  · exact absurd (by simp) h
  · unfold decodeQuad
    rw [if_pos (by simp), if_pos (by simp)]
    rfl

theorem decodeQuads_pad : ∀ (n : Nat) (t : Bytes), t.length ≤ n → t.length % 4 ≠ 0 → decodeQuads (t ++ [61]) = decodeQuads t := by
  intro n
  induction n with
  | zero => intro t h1 h2; rw [List.eq_nil_of_length_eq_zero (l := t) (by omega)] at h2; exact absurd rfl h2
  | succ n ih =>
    intro t h1 h2
    have h0 : t ≠ [] := fun h => h2 (by rw [h]; rfl)
    rw [decodeQuads, if_neg (by simp), decodeQuad_pad t h2]
    conv => rhs; rw [decodeQuads, if_neg h0]
    by_cases h4 : 4 < t.length
    · rw [List.drop_append_of_le_length (by omega), ih (t.drop 4) (by rw [List.length_drop]; omega) (by rw [List.length_drop]; omega)]
    · rw [List.drop_eq_nil_of_le (as := t ++ [61]) (by rw [List.length_append, List.length_singleton]; rcases Nat.lt_or_ge t.length 4 with h | h <;> omega), List.drop_eq_nil_of_le (as := t) (by omega)]

/-- Discrepancy: a text whose padding has been left out is not refused and is not decoded to the bytes that have been encoded: bytes 0 are added
to them, one for each character that is missing. -/
theorem C58_violated_unpadded (s t : Bytes) (k : Nat) (h : encodeBase64 s = t ++ List.replicate k 61) (ht : t.getLast? ≠ some 61) :
    decodeBase64 t = .ok (s ++ List.replicate k 0) := by
  have hpad : ∀ j, j ≤ k → (t.length + k) % 4 = 0 → k ≤ 2 → decodeQuads (t ++ List.replicate j 61) = decodeQuads t := by
    intro j
    induction j with
    | zero => intro _ _ _; simp
    | succ j ih =>
      intro hj hl hk
      rw [List.replicate_succ', ← List.append_assoc, decodeQuads_pad _ _ (Nat.le_refl _) (by
        rw [List.length_append, List.length_replicate]; omega), ih (by omega) hl hk]
  have hlen := C23_length s
  rw [h, List.length_append, List.length_replicate] at hlen
  have hq := decodeQuads_enc s
  rw [← encodeBase64_eq, h] at hq
  have hk : k = padding s.length := by
    by_cases hs : s = []
    · subst hs
      rw [encodeBase64_eq, enc] at h
      have := congrArg List.length h
      simp at this
      have hk : k = 0 := by omega
      rw [hk]
      rfl
    · obtain ⟨pre, w, x, y, z, e, hx, g0, g1, g2⟩ := enc_end s hs
      rw [encodeBase64_eq, e] at h
      have r := congrArg List.reverse h
      rw [List.reverse_append, List.reverse_append, List.reverse_replicate] at r
      simp only [List.reverse_cons, List.reverse_nil, List.nil_append, List.cons_append] at r
      have hhead : t.reverse.head? ≠ some 61 := by rw [List.head?_reverse]; exact ht
      unfold padding
      rcases (by omega : s.length % 3 = 0 ∨ s.length % 3 = 1 ∨ s.length % 3 = 2) with m | m | m
      · rcases k with _ | k
        · rw [m]
        · rw [List.replicate_succ, List.cons_append] at r
          exact absurd (List.cons.inj r).1 (g0 m)
      · obtain ⟨rfl, rfl⟩ := g1 m
        rcases k with _ | _ | _ | k
        · rw [List.replicate_zero, List.nil_append] at r
          rw [← r] at hhead
          exact absurd rfl hhead
        · have r : _ = t.reverse := (List.cons.inj r).2
          rw [← r] at hhead
          exact absurd rfl hhead
        · rw [m]
        · have r := (List.cons.inj ((List.cons.inj ((List.cons.inj r).2)).2)).1
          exact absurd r hx
      · obtain ⟨gy, rfl⟩ := g2 m
        rcases k with _ | _ | k
        · rw [List.replicate_zero, List.nil_append] at r
          rw [← r] at hhead
          exact absurd rfl hhead
        · rw [m]
        · have r := (List.cons.inj ((List.cons.inj r).2)).1
          exact absurd r gy
  have hk2 : k ≤ 2 := by rw [hk]; unfold padding; omega
  have hl : (t.length + k) % 4 = 0 := by omega
  rw [hpad k (Nat.le_refl _) hl hk2] at hq
  unfold decodeBase64
  rw [hq, Outcome.ok_bind, ← hk]
  split
  · rename_i h0
    rw [unpad_stop _ _ _ (by
      rw [List.getD_eq_getElem?_getD, ← List.getLast?_eq_getElem?]
      intro h9
      rw [List.getLast?_eq_some_getLast (List.length_pos_iff.1 h0)] at h9 ht
      exact ht (by rw [← h9]; rfl))]
    rfl
  · rfl

example : encodeBase64 (str "hell") = str "aGVsbA" ++ List.replicate 2 61 ∧ decodeBase64 (str "aGVsbA") = .ok (str "hell" ++ [0, 0]) := by decide +kernel

/-- Discrepancy: a byte that is not of base64, like the end of a line, is neither skipped nor refused: it counts as the letter A. -/
theorem C58_violated_foreign (s : Bytes) :
    decodeBase64 (s.map fun c => if Base64Char c ∨ c = 123 then c else 65) = decodeBase64 s := by
  generalize hf : (fun c : UInt8 => if Base64Char c ∨ c = 123 then c else 65) = f
  have hi : ∀ c, invbase64 (f c) = invbase64 c := by
    rw [← hf]
    exact forall_byte (by decide +kernel)
  have h61 : ∀ c, f c = 61 ↔ c = 61 := by
    rw [← hf]
    exact forall_byte (by decide +kernel)
  have hget : ∀ (s : Bytes) i, invbase64 ((s.map f).getD i 0) = invbase64 (s.getD i 0) := by
    intro s i
    simp only [List.getD_eq_getElem?_getD, List.getElem?_map]
    cases s[i]? with
    | none => rfl
    | some c => exact hi c
  have hget61 : ∀ i, (s.map f).getD i 0 = 61 ↔ s.getD i 0 = 61 := by
    intro i
    simp only [List.getD_eq_getElem?_getD, List.getElem?_map]
    cases s[i]? with
    | none => rfl
    | some c => exact h61 c
  have hquad : ∀ s : Bytes, decodeQuad (s.map f) = decodeQuad s := by
    intro s
    unfold decodeQuad
    simp only [hget, List.length_map]
  have hquads : ∀ (n : Nat) (s : Bytes), s.length ≤ n → decodeQuads (s.map f) = decodeQuads s := by
    intro n
    induction n with
    | zero => intro s hs; rw [List.eq_nil_of_length_eq_zero (l := s) (by omega)]; rfl
    | succ n ih =>
      intro s hs
      by_cases h0 : s = []
      · rw [h0]; rfl
      · have := List.length_pos_iff.2 h0
        rw [decodeQuads, if_neg (by simpa using h0), hquad, ← List.map_drop, ih (s.drop 4) (by rw [List.length_drop]; omega)]
        conv => rhs; rw [decodeQuads, if_neg h0]
  have hunpad : ∀ i res, unpad (s.map f) res i = unpad s res i := by
    intro i
    induction i with
    | zero => intro res; unfold unpad; simp only [hget61]
    | succ i ih => intro res; unfold unpad; simp only [hget61, ih]
  unfold decodeBase64
  rw [hquads _ s (Nat.le_refl _), List.length_map]
  simp only [hunpad]

example : decodeBase64 (str "aGVs\nbG8=") = decodeBase64 (str "aGVsAbG8=") := by decide +kernel

end Msat.Props
