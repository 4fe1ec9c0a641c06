import Verif.Model.Basic
import Verif.Model.StdString

/-
msat/utils/string.{h,cc}: string functions.  Strings are byte lists.  The C library's classification
functions are those of the C locale (bytes above 127 are in no class).
-/
namespace Msat.Str

/-! ### The C library: not code of /repo -/

def isspace (c : UInt8) : Bool := c == 32 || (9 ≤ c && c ≤ 13)
def iscntrl (c : UInt8) : Bool := c < 32 || c == 127
def isdigit (c : UInt8) : Bool := 48 ≤ c && c ≤ 57
def isxdigit (c : UInt8) : Bool := isdigit c || (65 ≤ c && c ≤ 70) || (97 ≤ c && c ≤ 102)
def toupper (c : UInt8) : UInt8 := if 97 ≤ c && c ≤ 122 then c - 32 else c
def tolower (c : UInt8) : UInt8 := if 65 ≤ c && c ≤ 90 then c + 32 else c

/-- The value of a hexadecimal digit. -/
def digitValue (c : UInt8) : Nat :=
  if isdigit c then c.toNat - 48 else if 97 ≤ c then c.toNat - 87 else c.toNat - 55

/-- The digits of `strtoul(s, nullptr, 16)` after blanks, sign and prefix. -/
def hexDigits (acc : Nat) : Bytes → Nat
  | [] => acc
  | c :: cs => if isxdigit c then hexDigits (acc * 16 + digitValue c) cs else acc

/-- `strtoul(s, nullptr, 16)` for strings too short to overflow; `c_str()` ends at the first NUL, which
is not a digit.  The result is a 64 bit unsigned number. -/
def strtoul16 (s : Bytes) : Nat :=
  let s := s.dropWhile isspace
  let (neg, s) := match s with
    | 45 :: r => (true, r)
    | 43 :: r => (false, r)
    | _ => (false, s)
  let s := match s with
    | 48 :: x :: d :: r => if (x == 120 || x == 88) && isxdigit d then d :: r else s
    | _ => s
  let v := hexDigits 0 s
  if neg then (2 ^ 64 - v) % 2 ^ 64 else v

/-- The decimal digits read by `atoi`. -/
def decDigits (acc : Nat) : Bytes → Nat
  | [] => acc
  | c :: cs => if isdigit c then decDigits (acc * 10 + (c.toNat - 48)) cs else acc

/-- `s.find(sep)` for a string `sep`: index of the first occurrence. -/
def findSub (sep : Bytes) : Bytes → Option Nat
  | [] => if sep = [] then some 0 else none
  | c :: cs => if sep.isPrefixOf (c :: cs) then some 0 else (findSub sep cs).map (· + 1)

/-- `s.find(sep, pos)` for `pos ≤ s.size()`. -/
def findFrom (s sep : Bytes) (pos : Nat) : Option Nat := (findSub sep (s.drop pos)).map (pos + ·)

/-! ### Classification and case: string.h -/

/-- string.h:19-24 `startswith` -/
def startswith (s part : Bytes) : Bool :=
  if s.length < part.length then false else StdString.substr s 0 part.length == part

/-- string.h:27-32 `endswith` -/
def endswith (s part : Bytes) : Bool :=
  if s.length < part.length then false else StdString.substrFrom s (s.length - part.length) == part

/-- string.h:37-51, 56-70 `join`: the loop, `first` is the flag of the code. -/
def joinLoop (sep : Bytes) (first : Bool) (res : Bytes) : List Bytes → Bytes
  | [] => res
  | i :: is => joinLoop sep false ((if first then res else res ++ sep) ++ i) is

def join (sep : Bytes) (items : List Bytes) : Bytes := joinLoop sep true [] items

/-- string.h:88-95 `upper` -/
def upper (s : Bytes) : Bytes := s.map toupper

/-- string.h:98-105 `lower` -/
def lower (s : Bytes) : Bytes := s.map tolower

/-! ### Strip: string.cc:15-82 -/

/-- `while (beg < end && classifier(str[beg])) ++beg;` -/
def skipForward (p : UInt8 → Bool) (s : Bytes) (beg stop : Nat) : Nat :=
  if beg < stop then
    if p (s.getD beg 0) then skipForward p s (beg + 1) stop else beg
  else beg
termination_by stop - beg

/-- `while (beg < end && classifier(str[end - 1])) --end;` -/
def skipBackward (p : UInt8 → Bool) (s : Bytes) (beg : Nat) : Nat → Nat
  | 0 => 0
  | stop + 1 => if beg < stop + 1 ∧ p (s.getD stop 0) then skipBackward p s beg stop else stop + 1

/-- string.cc:15-27, 72-75 `lstrip`; the length of the substring is `size - beg + 1`, which `substr`
clips. -/
def lstrip (s : Bytes) : Bytes :=
  if s = [] then s
  else
    let beg := skipForward isspace s 0 s.length
    StdString.substr s beg (s.length - beg + 1)

/-- string.cc:33-47, 77-80 `rstrip` -/
def rstrip (s : Bytes) : Bytes :=
  if s = [] then s
  else
    let e := skipBackward isspace s 0 s.length
    if e = 0 then [] else StdString.substr s 0 e

/-- string.cc:53-67, 82-85 `strip` -/
def strip (s : Bytes) : Bytes :=
  if s = [] then s
  else
    let beg := skipForward isspace s 0 s.length
    let e := skipBackward isspace s beg s.length
    StdString.substr s beg (e - beg)

/-! ### Paths: string.cc:87-206 -/

def slash : UInt8 := 47

/-- string.cc:87-94 `basename` -/
def basename (p : Bytes) : Bytes :=
  match StdString.rfind p slash with
  | none => p
  | some pos => StdString.substrFrom p (pos + 1)

/-- `p.rfind("/", pos)`: the last `/` that starts at or before `pos`. -/
def rfindUpTo (p : Bytes) (pos : Nat) : Option Nat := StdString.rfind (p.take (pos + 1)) slash

/-- string.cc:96-121 `dirname` -/
def dirname (p : Bytes) : Bytes :=
  if p = [] then str "."
  else
    let e := skipBackward (· == slash) p 0 p.length
    if e = 0 then str "/"
    else
      match rfindUpTo p (e - 1) with
      | none => str "."
      | some e =>
        let e := skipBackward (· == slash) p 0 e
        if e = 0 then str "/" else StdString.substr p 0 e

/-- string.cc:123-173 `appendpath`, both overloads (a `char*` argument has no NUL inside). -/
def appendpath (dest path2 : Bytes) : Bytes :=
  if path2 = [] then dest
  else if dest = [] then path2
  else if dest.getD (dest.length - 1) 0 = slash then
    if path2.getD 0 0 = slash then dest ++ StdString.substrFrom path2 1 else dest ++ path2
  else
    if path2.getD 0 0 = slash then dest ++ path2 else dest ++ [slash] ++ path2

/-- string.h:124-131, 134-143 `joinpath` -/
def joinpath (components : List Bytes) : Bytes := components.foldl appendpath []

/-! ### Split: string.cc:208-312 -/

/-- `Split::const_iterator`: `alive` is `split != nullptr`, `pos` is `end` with `none` for `npos`. -/
structure It where
  alive : Bool
  cur : Bytes
  pos : Option Nat
deriving DecidableEq, Repr

/-- string.cc:233-249 `skip_separators`.  With an empty separator the loop never ends (it is only called
with `end ≤ str.size()`). -/
def skipSeparators (s sep : Bytes) (pos : Nat) : Outcome Nat :=
  if _h : sep = [] then (if pos ≤ s.length then .diverges else .ok pos)
  else if pos + sep.length ≤ s.length ∧ sep.isPrefixOf (s.drop pos) then skipSeparators s sep (pos + sep.length)
  else .ok pos
termination_by s.length - pos
decreasing_by
  have : sep.length ≠ 0 := fun e => _h (List.eq_nil_of_length_eq_zero e)
  omega

/-- string.cc:251-312 `operator++` -/
def next (s sep : Bytes) (skip : Bool) (it : It) : Outcome It :=
  if !it.alive then .ok it
  else
    match it.pos with
    | none => .ok { it with alive := false }
    | some e =>
      if e = s.length then .ok { it with cur := [], pos := none }
      else
        let tokEnd := if sep = [] then some (e + 1) else findFrom s sep e
        match tokEnd with
        | none => .ok { it with cur := StdString.substrFrom s e, pos := none }
        | some t =>
          let cur := StdString.substr s e (t - e)
          let e := t + sep.length
          if skip then do
            let e ← skipSeparators s sep e
            if e = s.length then .ok { it with cur := cur, pos := none }
            else .ok { it with cur := cur, pos := some e }
          else .ok { it with cur := cur, pos := some e }

/-- string.cc:208-219: the begin iterator. -/
def begin (s sep : Bytes) (skip : Bool) : Outcome It :=
  if s = [] then .ok ⟨false, [], some 0⟩
  else do
    let e ← if skip then skipSeparators s sep 0 else .ok 0
    next s sep skip ⟨true, [], some e⟩

/-- `for (const auto& i: split)`: runs until the iterator equals the end iterator (string.cc:322-329:
both have a null `split`).  `fuel` bounds the number of tokens. -/
def collect (s sep : Bytes) (skip : Bool) : Nat → It → Outcome (List Bytes)
  | 0, _ => .diverges
  | fuel + 1, it =>
    if it.alive then do
      let it' ← next s sep skip it
      let rest ← collect s sep skip fuel it'
      pure (it.cur :: rest)
    else .ok []

/-- All the tokens of `Split(s, sep, skip)`.  Every step moves the position forward, so that
`s.length + 3` iterations are enough: `C21` proves that the bound is never reached. -/
def split (s sep : Bytes) (skip : Bool) : Outcome (List Bytes) := do
  let it ← begin s sep skip
  collect s sep skip (s.length + 3) it

/-- string.cc:175-206 `normpath`, the loop: `st` is the vector, with its last element first.
`st.back()` and `st.pop_back()` on an empty vector are undefined behaviour. -/
def normLoop (st : List Bytes) : List Bytes → Outcome (List Bytes)
  | [] => .ok st
  | i :: is =>
    if i = str "." ∨ i = [] then normLoop st is
    else if i = str ".." then
      match st with
      | [] => .ub
      | b :: st' =>
        if b = str ".." then normLoop (i :: st) is
        else if b = str "/" then normLoop st is
        else normLoop st' is
    else normLoop (i :: st) is

/-- string.cc:175-206 `normpath` (`pathname[0]` of an empty string is NUL). -/
def normpath (p : Bytes) : Outcome Bytes := do
  let st := if p.getD 0 0 = slash then [str "/"] else []
  let toks ← split p (str "/") false
  let st ← normLoop st toks
  if st = [] then .ok (str ".")
  else .ok (st.reverse.foldl appendpath [])

/-! ### C strings: string.cc:331-406 -/

/-- A lower case hexadecimal digit. -/
def hexDigit (n : Nat) : UInt8 := if n < 10 then UInt8.ofNat (48 + n) else UInt8.ofNat (87 + n)

/-- string.cc:331-348 `hex_byte_table[c]`: two lower case hexadecimal digits. -/
def hexByte (c : UInt8) : Bytes := [hexDigit (c.toNat / 16), hexDigit (c.toNat % 16)]

/-- string.cc:351-372: the encoding of one character. -/
def encodeCChar (c : UInt8) : Bytes :=
  if c = 10 then [92, 110]
  else if c = 9 then [92, 116]
  else if c = 0 ∨ iscntrl c then [92, 120] ++ hexByte c
  else if c = 34 ∨ c = 92 then [92, c]
  else [c]

/-- string.cc:351-372 `encode_cstring` -/
def encodeCString (s : Bytes) : Bytes := s.flatMap encodeCChar

/-- string.cc:389-394: up to two hexadecimal digits. -/
def takeHex (s : Bytes) : Bytes := (s.take 2).takeWhile isxdigit

/-- string.cc:374-406 `decode_cstring`, the loop: the result and what is left from the end of the loop.
`atoi("0x..")` reads the decimal number 0 (string.cc:395). -/
def decodeCLoop (res : Bytes) : Bytes → Bytes × Bytes
  | [] => (res, [])
  | c :: cs =>
    if c = 34 then (res, c :: cs)
    else if c = 92 then
      match cs with
      | [] => (res ++ [c], [])
      | 110 :: r => decodeCLoop (res ++ [10]) r
      | 116 :: r => decodeCLoop (res ++ [9]) r
      | 120 :: r =>
        let buf := [48, 120] ++ takeHex r
        decodeCLoop (res ++ [UInt8.ofNat (decDigits 0 buf)]) (r.drop (takeHex r).length)
      | d :: r => decodeCLoop (res ++ [d]) r
    else decodeCLoop (res ++ [c]) cs
termination_by s => s.length
decreasing_by all_goals (simp only [List.length_cons, List.length_drop]; omega)

/-- string.cc:374-406 `decode_cstring`: the decoded string and `lenParsed`. -/
def decodeCString (s : Bytes) : Bytes × Nat :=
  let (res, rest) := decodeCLoop [] s
  let rest := match rest with
    | 34 :: r => r
    | r => r
  (res, s.length - rest.length)

/-! ### URLs: string.cc:408-443 -/

/-- string.cc:413-415: characters that are not escaped. -/
def urlSafe (c : UInt8) : Bool :=
  (48 ≤ c && c ≤ 57) || (65 ≤ c && c ≤ 90) || (97 ≤ c && c ≤ 122) || c == 45 || c == 95
    || c == 33 || c == 42 || c == 39 || c == 40 || c == 41

/-- string.cc:408-424 `encode_url`; `snprintf` with `%%%02x`. -/
def encodeUrl (s : Bytes) : Bytes := s.flatMap (fun c => if urlSafe c then [c] else 37 :: hexByte c)

/-- string.cc:426-443 `decode_url`, from position `i`.  `i >= str.size() - 2` is a comparison of
`size_t`, which wraps around. -/
def decodeUrlLoop (s : Bytes) (res : Bytes) (i : Nat) : Bytes :=
  if i < s.length then
    if s.getD i 0 = 37 then
      if u64sub s.length 2 ≤ i then res
      else decodeUrlLoop s (res ++ [UInt8.ofNat (strtoul16 (StdString.substr s (i + 1) 2))]) (i + 3)
    else decodeUrlLoop s (res ++ [s.getD i 0]) (i + 1)
  else res
termination_by s.length - i

def decodeUrl (s : Bytes) : Bytes := decodeUrlLoop s [] 0

/-! ### Base64: string.cc:445-536 -/

/-- string.cc:445 `base64` -/
def base64 : Bytes := str "ABCDEFGHIJKLMNOPQRSTUVWXYZabcdefghijklmnopqrstuvwxyz0123456789+/"

/-- string.cc:450 `data` -/
def invTable : List Nat := [62,0,0,0,63,52,53,54,55,56,57,58,59,60,61,0,0,0,0,0,0,0,0,1,2,3,4,5,6,7,8,9,
  10,11,12,13,14,15,16,17,18,19,20,21,22,23,24,25,0,0,0,0,0,0,26,27,28,29,30,31,32,33,34,35,36,37,38,39,
  40,41,42,43,44,45,46,47,48,49,50,51]

/-- string.cc:447-454 `invbase64`; `char` is signed: bytes above 127 are negative.  The bound is one too
large, so that index 80 is outside of the table. -/
def invbase64 (c : UInt8) : Outcome Nat :=
  if 128 ≤ c.toNat ∨ c.toNat < 43 then .ok 0
  else if 43 + invTable.length < c.toNat then .ok 0
  else match invTable[c.toNat - 43]? with
    | some v => .ok v
    | none => .ub

/-- string.cc:471-486: four characters for the (up to) three bytes at the start of `s`. -/
def encodeTriplet (s : Bytes) : Bytes :=
  let at' (i : Nat) : Nat := (s.getD i 0).toNat
  let enc :=
    if 3 < s.length then at' 0 <<< 16 ||| at' 1 <<< 8 ||| at' 2
    else
      let enc := at' 0 <<< 16
      let enc := if 1 < s.length then enc ||| at' 1 <<< 8 else enc
      if 2 < s.length then enc ||| at' 2 else enc
  [18, 12, 6, 0].map (fun j => base64.getD (enc >>> j &&& 63) 0)

/-- string.cc:466-486: the loop over the triplets. -/
def encodeTriplets (s : Bytes) : Bytes :=
  if s = [] then [] else encodeTriplet s ++ encodeTriplets (s.drop 3)
termination_by s.length
decreasing_by
  have : s.length ≠ 0 := fun e => by rename_i h; exact h (List.eq_nil_of_length_eq_zero e)
  simp only [List.length_drop]; omega

/-- string.cc:466-493 `encode_base64` -/
def encodeBase64 (s : Bytes) : Bytes :=
  let res := encodeTriplets s
  if s.length % 3 ≠ 0 then
    (List.range (3 - s.length % 3)).foldl (fun r i => r.set (r.length - i - 1) 61) res
  else res

/-- string.cc:499-517: the 24 bits of the (up to) four characters at the start of `s`. -/
def decodeQuad (s : Bytes) : Outcome Nat := do
  if 4 < s.length then
    let a ← invbase64 (s.getD 0 0)
    let b ← invbase64 (s.getD 1 0)
    let c ← invbase64 (s.getD 2 0)
    let d ← invbase64 (s.getD 3 0)
    pure (a <<< 18 + b <<< 12 + c <<< 6 + d)
  else
    let a ← invbase64 (s.getD 0 0)
    let enc := a <<< 18
    let enc ← if 1 < s.length then do pure (enc + (← invbase64 (s.getD 1 0)) <<< 12) else pure enc
    let enc ← if 2 < s.length then do pure (enc + (← invbase64 (s.getD 2 0)) <<< 6) else pure enc
    if 3 < s.length then do pure (enc + (← invbase64 (s.getD 3 0))) else pure enc

/-- string.cc:499-522: the loop over the quadruplets. -/
def decodeQuads (s : Bytes) : Outcome Bytes :=
  if s = [] then .ok []
  else do
    let enc ← decodeQuad s
    let rest ← decodeQuads (s.drop 4)
    pure ([UInt8.ofNat (enc >>> 16 &&& 0xff), UInt8.ofNat (enc >>> 8 &&& 0xff), UInt8.ofNat (enc &&& 0xff)] ++ rest)
termination_by s.length
decreasing_by
  have : s.length ≠ 0 := fun e => by rename_i h; exact h (List.eq_nil_of_length_eq_zero e)
  simp only [List.length_drop]; omega

/-- string.cc:528-529: `if (res.size() > 0) res.resize(res.size() - 1);` -/
def dropLast1 (res : Bytes) : Bytes := if 0 < res.length then res.take (res.length - 1) else res

/-- string.cc:525-533: one byte less for each `=` at the end, from position `i` down. -/
def unpad (s res : Bytes) : Nat → Bytes
  | 0 => if s.getD 0 0 = 61 then dropLast1 res else res
  | i + 1 =>
    if s.getD (i + 1) 0 = 61 then
      if (dropLast1 res).length = 0 then dropLast1 res else unpad s (dropLast1 res) i
    else res

/-- string.cc:495-536 `decode_base64` -/
def decodeBase64 (s : Bytes) : Outcome Bytes := do
  let res ← decodeQuads s
  if 0 < s.length then pure (unpad s res (s.length - 1)) else pure res

end Msat.Str
