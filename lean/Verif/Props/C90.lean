import Verif.Lemmas.Thornsds

namespace Msat.Props
open Msat Ini IniSpec Db1Spec Thornsds

/-- The files of a directory are in the file system, with documents that can be read. -/
structure StoredDb (D : Directory) (fs : Files) : Prop where
  aoi : fs (D.path ++ str "/AoI") = docFile D.aoi
  info : fs (D.path ++ str "/INFO.DBI") = docFile D.info
  raw : ∀ name c, D.channels name = some c → fs (D.path ++ str "/" ++ name ++ str ".RAW") = some ⟨c.raw, true⟩
  calibration : ∀ name c, D.channels name = some c →
    fs (D.path ++ str "/" ++ name ++ str ".Calibration") = docFile c.calibration
  soundAoi : SoundDoc D.aoi
  soundInfo : SoundDoc D.info
  soundCalibration : ∀ name c, D.channels name = some c → SoundDoc c.calibration
  short : D.path.length ≤ 4000

/-- What an object has gone through: the directory has been opened, then channels have been asked for and set. -/
inductive Used {F : Type} (fl : Floats F) (fs : Files) (path : Bytes) : Db1 F → Prop
  | opened (d d' : Db1 F) : openDir fs d path = .ok d' → Used fl fs path d'
  | asked (d d' : Db1 F) (name : Bytes) (b : Bool) : Used fl fs path d → hasChannel fs d name = .ok (b, d') →
      Used fl fs path d'
  | chosen (d d' : Db1 F) (name : Bytes) : Used fl fs path d → setChannel fl fs d name = .ok d' → Used fl fs path d'

theorem hasChannel_keeps {F : Type} {fs : Files} {d d' : Db1 F} {name : Bytes} {b : Bool}
    (h : hasChannel fs d name = .ok (b, d')) : d'.dirname = d.dirname ∧ d'.aoi = d.aoi ∧ d'.info = d.info := by
  unfold hasChannel at h
  split at h
  · injection h with h; injection h with _ h; rw [← h]; exact ⟨rfl, rfl, rfl⟩
  · obtain ⟨p, _, h⟩ := Outcome.of_bind_ok h
    split at h
    · injection h with h; injection h with _ h; rw [← h]; exact ⟨rfl, rfl, rfl⟩
    · injection h with h; injection h with _ h; rw [← h]; exact ⟨rfl, rfl, rfl⟩

theorem afterRead_keeps {F : Type} {fl : Floats F} {d d' : Db1 F} {name : Bytes}
    (h : afterRead fl d name = .ok d') : d'.dirname = d.dirname ∧ d'.aoi = d.aoi ∧ d'.info = d.info := by
  unfold afterRead at h
  obtain ⟨ch, _, h⟩ := Outcome.of_bind_ok h
  obtain ⟨bits, _, h⟩ := Outcome.of_bind_ok h
  obtain ⟨n, _, h⟩ := Outcome.of_bind_ok h
  obtain ⟨vs, _, h⟩ := Outcome.of_bind_ok h
  injection h with h
  rw [← h]
  exact ⟨rfl, rfl, rfl⟩

theorem readRaw_keeps {F : Type} {fl : Floats F} {d d' : Db1 F} {file : Option File} {name : Bytes}
    (h : readRaw fl d file name = .ok d') : d'.dirname = d.dirname ∧ d'.aoi = d.aoi ∧ d'.info = d.info := by
  unfold readRaw at h
  split at h
  · injection h with h; rw [← h]; exact ⟨rfl, rfl, rfl⟩
  · split at h
    · split at h
      · cases h
      · dsimp only at h
        split at h
        · injection h with h; rw [← h]; exact ⟨rfl, rfl, rfl⟩
        · have := afterRead_keeps h
          exact this
    · injection h with h; rw [← h]; exact ⟨rfl, rfl, rfl⟩

theorem setChannel_keeps {F : Type} {fl : Floats F} {fs : Files} {d d' : Db1 F} {name : Bytes}
    (h : setChannel fl fs d name = .ok d') : d'.dirname = d.dirname ∧ d'.aoi = d.aoi ∧ d'.info = d.info := by
  unfold setChannel at h
  obtain ⟨⟨b, d1⟩, h1, h⟩ := Outcome.of_bind_ok h
  have k1 := hasChannel_keeps h1
  dsimp only at h
  split at h
  · cases h
  · obtain ⟨p, _, h⟩ := Outcome.of_bind_ok h
    obtain ⟨cal, _, h⟩ := Outcome.of_bind_ok h
    obtain ⟨q, _, h⟩ := Outcome.of_bind_ok h
    have k2 := readRaw_keeps h
    exact ⟨k2.1.trans k1.1, k2.2.1.trans k1.2.1, k2.2.2.trans k1.2.2⟩

theorem snprintf_short {n : Nat} {s : Bytes} (h : s.length ≤ n - 1) : snprintf n s = s := by
  unfold snprintf
  exact List.take_of_length_le h

theorem openDir_stored {F : Type} {fs : Files} {D : Directory} (h : StoredDb D fs) (d : Db1 F) :
    ∃ d', openDir fs d D.path = .ok d' ∧ d'.dirname = some D.path ∧ Answers d'.aoi D.aoi ∧ Answers d'.info D.info := by
  obtain ⟨a, ea, ha⟩ := iniFile_doc h.aoi h.soundAoi
  obtain ⟨i, ei, hi⟩ := iniFile_doc h.info h.soundInfo
  have hs := h.short
  have e1 : snprintf pathMax (D.path ++ str "/" ++ str "AoI") = D.path ++ str "/AoI" := by
    rw [snprintf_short, List.append_assoc]
    · rfl
    · simp [pathMax, str]; omega
  have e2 : snprintf pathMax (D.path ++ str "/" ++ str "INFO.DBI") = D.path ++ str "/INFO.DBI" := by
    rw [snprintf_short, List.append_assoc]
    · rfl
    · simp [pathMax, str]; omega
  refine ⟨{ d with dirname := some D.path, aoi := a, info := i }, ?_, rfl, ha, hi⟩
  unfold openDir
  rw [e1, e2, ea, Outcome.ok_bind, ei, Outcome.ok_bind]

theorem used_stored {F : Type} {fl : Floats F} {fs : Files} {D : Directory} (h : StoredDb D fs) {d : Db1 F}
    (hd : Used fl fs D.path d) : d.dirname = some D.path ∧ Answers d.aoi D.aoi ∧ Answers d.info D.info := by
  induction hd with
  | opened d d' e =>
    obtain ⟨d2, e2, r⟩ := openDir_stored h d
    rw [e] at e2
    injection e2 with e2
    rw [e2]
    exact r
  | asked d d' name b _ e ih =>
    obtain ⟨h1, h2, h3⟩ := hasChannel_keeps e
    rw [h1, h2, h3]
    exact ih
  | chosen d d' name _ e ih =>
    obtain ⟨h1, h2, h3⟩ := setChannel_keeps e
    rw [h1, h2, h3]
    exact ih

/-! ### Keys -/

theorem number_text : ∀ k : Fin 13, 1 ≤ k.val → Text.fmt0 1 (k.val : Int) = (toString k.val).toUTF8.toList := by
  intro k hk
  unfold Text.fmt0
  rw [if_neg (by omega), Int.natAbs_natCast]
  have : ∀ k : Fin 13, 1 ≤ k.val → List.replicate (1 - (if k.val < 10 then [UInt8.ofNat (48 + k.val)] else
      (if k.val / 10 < 10 then [UInt8.ofNat (48 + k.val / 10)] else []) ++ [UInt8.ofNat (48 + k.val % 10)]).length) 48 ++
      (if k.val < 10 then [UInt8.ofNat (48 + k.val)] else
      (if k.val / 10 < 10 then [UInt8.ofNat (48 + k.val / 10)] else []) ++ [UInt8.ofNat (48 + k.val % 10)]) =
      (toString k.val).toUTF8.toList := by decide +kernel
  have h2 := this k hk
  have hd : Text.decimal k.val = (if k.val < 10 then [UInt8.ofNat (48 + k.val)] else
      (if k.val / 10 < 10 then [UInt8.ofNat (48 + k.val / 10)] else []) ++ [UInt8.ofNat (48 + k.val % 10)]) := by
    rw [Text.decimal]
    split
    · rfl
    · rw [Text.decimal]
      have := k.isLt
      rw [if_pos (by omega), if_pos (by omega)]
  rw [hd]
  exact h2

/-- What is asked about channels. -/
def channelWords : List String := ["Name", "Variable", "Units", "BitsPerPixel", "Table"]

theorem channel_keys : ∀ k : Fin 13, 1 ≤ k.val → ∀ w ∈ channelWords,
    (str "Channel" ++ (toString k.val).toUTF8.toList ++ str ":" ++ str w).length ≤ 31 ∧
    Ini.hash ((str "Channel" ++ (toString k.val).toUTF8.toList ++ str ":" ++ str w).map fold) ≠ 0 := by
  decide +kernel

theorem channelKey_eq {k : Nat} (h1 : 1 ≤ k) (h2 : k ≤ 12) {w : String} (hw : w ∈ channelWords) :
    channelKey k (str w) = str "Channel" ++ (toString k).toUTF8.toList ++ str ":" ++ str w := by
  have e := number_text ⟨k, by omega⟩ h1
  have hl := (channel_keys ⟨k, by omega⟩ h1 w hw).1
  dsimp only at e hl
  unfold channelKey
  rw [e, snprintf_short hl]

theorem channelKey_ok {k : Nat} (h1 : 1 ≤ k) (h2 : k ≤ 12) {w : String} (hw : w ∈ channelWords) :
    (channelKey k (str w)).length ≤ 1024 ∧ Ini.hash ((channelKey k (str w)).map fold) ≠ 0 ∧
    (58 : UInt8) ∈ channelKey k (str w) := by
  rw [channelKey_eq h1 h2 hw]
  have h := channel_keys ⟨k, by omega⟩ h1 w hw
  dsimp only at h
  refine ⟨by omega, h.2, ?_⟩
  have : (58 : UInt8) ∈ str ":" := by decide
  simp only [List.mem_append]
  exact .inl (.inr this)

theorem channelText {info : Option Dict} {doc : Option Doc} (h : Answers info doc) {k : Nat} (h1 : 1 ≤ k) (h2 : k ≤ 12)
    {w : String} (hw : w ∈ channelWords) (dflt : Bytes) :
    getText info (channelKey k (str w)) dflt = .ok (some ((channelEntry doc k w).getD dflt)) := by
  obtain ⟨hl, hh, hc⟩ := channelKey_ok h1 h2 hw
  rw [getText_doc h dflt hl (.inl hh) hc]
  unfold channelEntry channelPath
  rw [channelKey_eq h1 h2 hw]

/-- The names of the channels are not longer than names of SEVIRI channels. -/
def ShortNames (info : Option Doc) : Prop :=
  ∀ k n, 1 ≤ k → k ≤ 12 → channelEntry info k "Name" = some n → n.length ≤ 6

theorem sameChannel_short {a b : Bytes} (ha : a.length ≤ 6) (hb : b.length ≤ 6) : sameChannel a b = true ↔ a = b := by
  unfold sameChannel
  rw [List.take_of_length_le ha, List.take_of_length_le hb, beq_iff_eq]

theorem channelLoop_spec {info : Option Dict} {doc : Option Doc} (h : Answers info doc) (hn : ShortNames doc)
    {name : Bytes} {k : Nat} (hl : name.length ≤ 6) (hu : name ≠ str "Undefi") (hk : IsChannel doc name k) :
    ∀ (n ich : Nat), ich + n = 12 → ich < k → channelLoop info name ich n = .ok k := by
  obtain ⟨hk1, hk2, hk3, hk4⟩ := hk
  intro n
  induction n with
  | zero => intro ich he hi; omega
  | succ n ih =>
    intro ich he hi
    rw [channelLoop, channelText h (by omega) (by omega) (by decide) _, Outcome.ok_bind]
    dsimp only
    by_cases e : ich + 1 = k
    · rw [e, hk3]
      dsimp only [Option.getD]
      rw [if_pos ((sameChannel_short hl hl).2 rfl)]
    · rw [if_neg, ih (ich + 1) (by omega) (by omega)]
      have hne := hk4 (ich + 1) (by omega) (by omega)
      cases hc : channelEntry doc (ich + 1) "Name" with
      | none =>
        dsimp only [Option.getD]
        unfold sameChannel
        rw [List.take_of_length_le hl, beq_iff_eq]
        exact hu
      | some m =>
        dsimp only [Option.getD]
        rw [sameChannel_short hl (hn (ich + 1) m (by omega) (by omega) hc)]
        rintro rfl
        exact hne hc

/-! ### Calibration -/

theorem letter_code {F : Type} {d : Db1 F} {doc : Option Doc} (h : Answers d.info doc) {k : Nat} {name quantity letter : Bytes}
    (hd : d.chnum = k) (h1 : 1 ≤ k) (h2 : k ≤ 12) (hname : channelEntry doc k "Name" = some name)
    (hq : (channelEntry doc k "Variable").getD (str "Undefined") = quantity) (hl : Letter quantity name letter) :
    channelVariable d = .ok (some quantity) ∧ channelName d = .ok (some name) ∧ variableCode d = .ok (some letter) := by
  have hok : isDataOk d = true := by unfold isDataOk; rw [hd]; exact decide_eq_true h1
  have e1 : channelVariable d = .ok (some quantity) := by
    unfold channelVariable
    rw [if_pos hok, hd, channelText h h1 h2 (by decide), hq]
  have e2 : channelName d = .ok (some name) := by
    unfold channelName
    rw [if_pos hok, hd, channelText h h1 h2 (by decide), hname]
    rfl
  refine ⟨e1, e2, ?_⟩
  unfold variableCode
  rw [if_pos hok, e1, Outcome.ok_bind, e2, Outcome.ok_bind]
  dsimp only
  have solarOk : ∀ n ∈ solar, chnameToChnum n ≤ 3 := by decide
  have othersOk : ∀ n ∈ others, ¬ chnameToChnum n ≤ 3 := by decide
  have hh : ∀ c : UInt8, c ≠ 0 → (quantity.headD 0 = c ↔ quantity.head? = some c) := by
    intro c hc
    cases quantity with
    | nil => simp [Ne.symm hc]
    | cons x xs => simp
  cases hl with
  | temperature h => rw [if_pos ((hh 84 (by decide)).2 h)]
  | solar h hm =>
    rw [if_neg, if_pos ((hh 82 (by decide)).2 h), if_pos (solarOk _ hm)]
    rw [hh 84 (by decide), h]
    decide
  | other h hm =>
    rw [if_neg, if_pos ((hh 82 (by decide)).2 h), if_neg (othersOk _ hm)]
    rw [hh 84 (by decide), h]
    decide
  | undefined h h' =>
    rw [if_neg (fun e => h ((hh 84 (by decide)).1 e)), if_neg (fun e => h' ((hh 82 (by decide)).1 e))]

/-- The key of a count may be asked: it is short, and it is there or its hash is not zero. -/
def Askable (cal : Option Doc) (key : Bytes) : Prop :=
  key.length ≤ 31 ∧ (Ini.hash (key.map fold) ≠ 0 ∨ entry cal key ≠ none)

/-- The value of a count: what the calibration says, or 0. -/
def calibratedValue {F : Type} (fl : Floats F) (cal : Option Doc) (key : Bytes) : F :=
  match entry cal key with
  | none => fl.const 0
  | some t => fl.atof t

theorem fmt0_numeral {t : Bytes} {n : Nat} (h : Numeral t n) : Text.fmt0 1 (n : Int) = t := by
  have e := numeral_decimal h
  unfold Text.fmt0
  rw [if_neg (by omega), Int.natAbs_natCast, e]
  have : 1 - t.length = 0 := by
    have := h.1.1
    cases t with
    | nil => exact absurd rfl this
    | cons c cs => simp
  rw [this]
  rfl

/-- Every number has a numeral. -/
theorem numeral_exists (n : Nat) : Numeral (Text.decimal n) n := by
  induction n using Nat.strongRecOn with
  | ind n ih =>
    have dig : ∀ k : Fin 10, 48 ≤ UInt8.ofNat (48 + k.val) ∧ UInt8.ofNat (48 + k.val) ≤ 57 ∧
        (UInt8.ofNat (48 + k.val)).toNat - 48 = k.val ∧ (UInt8.ofNat (48 + k.val) = 48 → k.val = 0) := by decide
    by_cases h : n < 10
    · have d := dig ⟨n, h⟩
      dsimp only at d
      rw [Text.decimal, if_pos h]
      refine ⟨⟨by simp, ?_, by rw [List.foldl_cons, List.foldl_nil, d.2.2.1]; omega⟩, ?_, ?_⟩
      · intro c hc
        rw [List.mem_singleton] at hc
        rw [hc]
        exact ⟨d.1, d.2.1⟩
      · rintro rfl; rfl
      · intro hne e
        simp only [List.head?_cons, Option.some.injEq] at e
        exact hne (d.2.2.2 e)
    · have d := dig ⟨n % 10, by omega⟩
      dsimp only at d
      obtain ⟨⟨i1, i2, i3⟩, i4, i5⟩ := ih (n / 10) (by omega)
      rw [Text.decimal, if_neg h]
      refine ⟨⟨by simp, ?_, ?_⟩, by omega, ?_⟩
      · intro c hc
        rw [List.mem_append, List.mem_singleton] at hc
        rcases hc with hc | rfl
        · exact i2 c hc
        · exact ⟨d.1, d.2.1⟩
      · rw [List.foldl_append, ← i3, List.foldl_cons, List.foldl_nil, d.2.2.1]
        omega
      · intro _
        have := i5 (by omega)
        cases hd : Text.decimal (n / 10) with
        | nil => exact absurd hd i1
        | cons a r => rw [hd] at this; simpa using this

theorem valueCalibrated_spec {F : Type} {fl : Floats F} {d : Db1 F} {cal : Option Doc} (hc : Answers d.calibration cal)
    {quantity letter t : Bytes} {i : Nat} (hok : isDataOk d = true)
    (hv : channelVariable d = .ok (some quantity)) (hcode : variableCode d = .ok (some letter)) (ht : Numeral t i)
    (ha : Askable cal (countKey quantity letter t)) :
    valueCalibrated fl d i = .ok (calibratedValue fl cal (countKey quantity letter t)) := by
  unfold valueCalibrated
  rw [if_pos hok, if_neg (by omega), hv, Outcome.ok_bind, hcode, Outcome.ok_bind]
  dsimp only
  rw [fmt0_numeral ht]
  have hk : countKey quantity letter t = quantity ++ str ":" ++ letter ++ str "(" ++ t ++ str ")" := rfl
  rw [← hk, snprintf_short ha.1, getFloat_doc fl hc 0 (by have := ha.1; omega) ha.2 (by
    rw [hk]
    have : (58 : UInt8) ∈ str ":" := by decide
    simp only [List.mem_append]
    tauto)]
  unfold calibratedValue
  cases entry cal (countKey quantity letter t) <;> rfl

theorem calLoop_spec {F : Type} {fl : Floats F} {d : Db1 F} (f : Nat → F) : ∀ (n i : Nat),
    (∀ j, i ≤ j → j < i + n → valueCalibrated fl d j = .ok (f j)) →
    calLoop fl d i n = .ok ((List.range' i n).map f)
  | 0, i, _ => rfl
  | n + 1, i, h => by
    rw [calLoop, h i (Nat.le_refl _) (by omega), Outcome.ok_bind,
      calLoop_spec f n (i + 1) (fun j h1 h2 => h j (by omega) (by omega)), Outcome.ok_bind]
    rfl

theorem bits_spec {info : Option Dict} {doc : Option Doc} (h : Answers info doc) {bits : Nat}
    (hb : NumberAt doc "Image:BitsPerPixel" 10 bits) : getInt info (str "Image:BitsPerPixel") 10 = .ok bits := by
  rw [getInt_doc h 10 (by decide) (.inl (by decide +kernel)) (by decide)]
  rcases hb with ⟨e, rfl⟩ | ⟨t, e, ht⟩
  · rw [e]; rfl
  · rw [e]
    dsimp only
    rw [atoi_number ht]

/-- What is known of a channel once it has been set. -/
structure ChannelSet {F : Type} (fl : Floats F) (D : Directory) (name : Bytes) (c : Channel) (k bits : Nat)
    (d : Db1 F) : Prop where
  valid : isDataOk d = true
  number : d.chnum = k
  data : rawData d = some c.raw
  size : rawDataSize d = .ok c.raw.length
  values : rawDataNvals d = .ok (c.raw.length / 2 : Nat)
  named : channelName d = .ok (some name)
  counts : numberOfCalibration d = 2 ^ bits
  table : ∃ l, calibrationTable d = some l ∧ l.length = 2 ^ bits ∧
    ∀ quantity letter i t, (channelEntry D.info k "Variable").getD (str "Undefined") = quantity →
      Letter quantity name letter → i < 2 ^ bits → Numeral t i →
      l[i]? = some (calibratedValue fl c.calibration (countKey quantity letter t))

theorem toInt_small {n : Nat} (h : n < 2 ^ 31) : toInt n = n := by
  unfold toInt
  rw [Int.bmod_eq_of_le] <;> omega

/-- Setting a channel, when the loop over the names gives `k`. -/
theorem setChannel_core {F : Type} (fl : Floats F) (fs : Files) (D : Directory) (hs : StoredDb D fs) (d : Db1 F)
    (hd : Used fl fs D.path d) (chname name : Bytes) (c : Channel) (k bits : Nat) (quantity letter : Bytes)
    (hc : D.channels chname = some c) (hraw : c.raw ≠ []) (hsize : c.raw.length < 2 ^ 31) (hl : chname.length ≤ 60)
    (hfound : ∀ info, Answers info D.info → channelLoop info chname 0 12 = .ok k)
    (hk : 1 ≤ k) (hk2 : k ≤ 12) (hname : channelEntry D.info k "Name" = some name)
    (hb : NumberAt D.info "Image:BitsPerPixel" 10 bits) (hb30 : bits ≤ 30)
    (hq : (channelEntry D.info k "Variable").getD (str "Undefined") = quantity) (hle : Letter quantity name letter)
    (ha : ∀ i t, i < 2 ^ bits → Numeral t i → Askable c.calibration (countKey quantity letter t)) :
    ∃ d', setChannel fl fs d chname = .ok d' ∧ ChannelSet fl D name c k bits d' := by
  obtain ⟨hdir, haoi, hinfo⟩ := used_stored hs hd
  clear hd
  obtain ⟨dn, sz, ao, inf, ca, cn, rd, nc, cv⟩ := d
  dsimp only at hdir haoi hinfo
  subst hdir
  obtain ⟨cal, ecal, hcal⟩ := iniFile_doc (hs.calibration chname c hc) (hs.soundCalibration chname c hc)
  have hp := hs.short
  have p1 : sprintfPath (D.path ++ str "/" ++ chname ++ str ".RAW") = .ok (D.path ++ str "/" ++ chname ++ str ".RAW") := by
    unfold sprintfPath
    rw [if_pos]
    simp [pathMax, str]; omega
  have p2 : sprintfPath (D.path ++ str "/" ++ chname ++ str ".Calibration") =
      .ok (D.path ++ str "/" ++ chname ++ str ".Calibration") := by
    unfold sprintfPath
    rw [if_pos]
    simp [pathMax, str]; omega
  have hfile := hs.raw chname c hc
  have hlen : c.raw.length ≠ 0 := by
    intro e; exact hraw (List.length_eq_zero_iff.1 e)
  -- the object before the channel is known
  let d1 : Db1 F := ⟨some D.path, some c.raw.length, ao, inf, cal, cn, some c.raw, nc, cv⟩
  let d2 : Db1 F := { d1 with chnum := k, ncalval := 2 ^ bits }
  have hk1 := hk
  have hok : isDataOk d2 = true := decide_eq_true hk1
  obtain ⟨v1, v2, v3⟩ := letter_code (d := d2) hinfo rfl hk hk2 hname hq hle
  let f : Nat → F := fun i => calibratedValue fl c.calibration (countKey quantity letter (Text.decimal i))
  have hloop : calLoop fl d2 0 (2 ^ bits) = .ok ((List.range' 0 (2 ^ bits)).map f) := by
    apply calLoop_spec
    intro j _ hj
    exact valueCalibrated_spec hcal hok v1 v3 (numeral_exists j) (ha j _ (by omega) (numeral_exists j))
  have hset : setChannel fl fs ⟨some D.path, sz, ao, inf, ca, cn, rd, nc, cv⟩ chname = .ok { d2 with calValues := some ((List.range' 0 (2 ^ bits)).map f) } := by
    unfold setChannel hasChannel
    dsimp only
    rw [p1, Outcome.ok_bind, hfile]
    dsimp only
    rw [Outcome.ok_bind]
    dsimp only
    rw [p2, Outcome.ok_bind, ecal, Outcome.ok_bind, p1, Outcome.ok_bind, hfile]
    unfold readRaw
    dsimp only
    rw [if_pos rfl, if_neg (by omega), List.take_of_length_le (Nat.le_refl _)]
    unfold afterRead channelNumber
    dsimp only
    rw [hfound inf hinfo, Outcome.ok_bind]
    unfold bitsPerPixel intQuery isDataOk
    dsimp only
    rw [if_pos (show decide (0 < k) = true from decide_eq_true hk1), bits_spec hinfo hb, Outcome.ok_bind]
    unfold powerOfTwo
    rw [if_neg (by omega), if_pos (by omega), Outcome.ok_bind, Int.toNat_natCast,
      show ((2 : Int) ^ bits).toNat = 2 ^ bits by
        rw [show ((2 : Int) ^ bits) = ((2 ^ bits : Nat) : Int) by norm_cast, Int.toNat_natCast]]
    show (calLoop fl d2 0 (2 ^ bits) >>= _) = _
    rw [hloop, Outcome.ok_bind]
  refine ⟨_, hset, ?_⟩
  have hchn : channelName { d2 with calValues := some ((List.range' 0 (2 ^ bits)).map f) } = channelName d2 := rfl
  refine ⟨hok, rfl, ?_, ?_, ?_, ?_, ?_, ?_⟩
  · unfold rawData; exact if_pos hok
  · unfold rawDataSize
    refine (if_pos hok).trans ?_
    show Outcome.ok (toInt c.raw.length) = _
    rw [toInt_small hsize]
  · unfold rawDataNvals
    refine (if_pos hok).trans ?_
    show Outcome.ok (toInt (c.raw.length / 2)) = _
    rw [toInt_small (by omega)]
  · rw [hchn]; exact v2
  · unfold numberOfCalibration; exact if_pos hok
  · refine ⟨_, if_pos hok, by simp, ?_⟩
    intro q l i t hq' hl' hi ht
    have eq : q = quantity := by rw [← hq', hq]
    subst eq
    have el : l = letter := by
      have := letter_code (d := d2) hinfo rfl hk hk2 hname hq hl'
      have := this.2.2.symm.trans v3
      injection this with this
      injection this
    subst el
    rw [List.getElem?_map, List.getElem?_range' (by omega)]
    simp only [Option.map_some, Nat.one_mul, Nat.zero_add]
    show some (calibratedValue fl c.calibration (countKey q l (Text.decimal i))) = _
    rw [numeral_decimal ht]

/-- After any use of the object, setting a channel that the directory has gives its samples, its size, its number
of counts and for each of them the value in its calibration.  Missing: what the violations below are about: names
and variables that are too long, and a number of bits above 30. -/
theorem C90_channel_partial {F : Type} (fl : Floats F) (fs : Files) (D : Directory) (hs : StoredDb D fs) (d : Db1 F)
    (hd : Used fl fs D.path d) (name : Bytes) (c : Channel) (k bits : Nat) (quantity letter : Bytes)
    (hc : D.channels name = some c) (hraw : c.raw ≠ []) (hsize : c.raw.length < 2 ^ 31)
    (hn : ShortNames D.info) (hl : name.length ≤ 6) (hu : name ≠ str "Undefi") (hk : IsChannel D.info name k)
    (hb : NumberAt D.info "Image:BitsPerPixel" 10 bits) (hb30 : bits ≤ 30)
    (hq : (channelEntry D.info k "Variable").getD (str "Undefined") = quantity) (hle : Letter quantity name letter)
    (ha : ∀ i t, i < 2 ^ bits → Numeral t i → Askable c.calibration (countKey quantity letter t)) :
    ∃ d', setChannel fl fs d name = .ok d' ∧ ChannelSet fl D name c k bits d' :=
  setChannel_core fl fs D hs d hd name name c k bits quantity letter hc hraw hsize (by omega)
    (fun _ hi => channelLoop_spec hi hn hl hu hk 12 0 rfl hk.1) hk.1 hk.2.1 hk.2.2.1 hb hb30 hq hle ha

/-- The first numbers in decimal. -/
def dec4 (n : Nat) : Bytes :=
  if n < 10 then [UInt8.ofNat (48 + n)]
  else if n < 100 then [UInt8.ofNat (48 + n / 10), UInt8.ofNat (48 + n % 10)]
  else if n < 1000 then [UInt8.ofNat (48 + n / 10 / 10), UInt8.ofNat (48 + n / 10 % 10), UInt8.ofNat (48 + n % 10)]
  else [UInt8.ofNat (48 + n / 10 / 10 / 10), UInt8.ofNat (48 + n / 10 / 10 % 10), UInt8.ofNat (48 + n / 10 % 10),
    UInt8.ofNat (48 + n % 10)]

theorem decimal_dec4 {n : Nat} (h : n < 10000) : Text.decimal n = dec4 n := by
  unfold dec4
  rw [Text.decimal]
  split
  · rfl
  · rw [Text.decimal]
    by_cases h1 : n < 100
    · rw [if_pos (by omega), if_pos h1]; rfl
    · rw [if_neg (by omega), if_neg h1, Text.decimal]
      by_cases h2 : n < 1000
      · rw [if_pos (by omega), if_pos h2]; rfl
      · rw [if_neg (by omega), if_neg h2, Text.decimal, if_pos (by omega)]; rfl

/-- The quantities that channels of SEVIRI have, with their letters. -/
def quantities : List (Bytes × Bytes) :=
  [(str "Temperature", str "T"), (str "Radiance", str "V"), (str "Radiance", str "N")]

theorem quantities_askable : ((List.range 1024).all fun i => quantities.all fun q =>
    decide ((countKey q.1 q.2 (dec4 i)).length ≤ 31) && (Ini.hash ((countKey q.1 q.2 (dec4 i)).map fold) != 0)) = true := by
  decide +kernel

/-- For channels of temperatures and radiances with up to 10 bits nothing has to be assumed of the keys. -/
theorem C90_seviri {F : Type} (fl : Floats F) (fs : Files) (D : Directory) (hs : StoredDb D fs) (d : Db1 F)
    (hd : Used fl fs D.path d) (name : Bytes) (c : Channel) (k bits : Nat) (quantity : Bytes)
    (hc : D.channels name = some c) (hraw : c.raw ≠ []) (hsize : c.raw.length < 2 ^ 31)
    (hn : ShortNames D.info) (hm : name ∈ solar ++ others) (hk : IsChannel D.info name k)
    (hb : NumberAt D.info "Image:BitsPerPixel" 10 bits) (hb10 : bits ≤ 10)
    (hq : channelEntry D.info k "Variable" = some quantity) (hqq : quantity = str "Temperature" ∨ quantity = str "Radiance") :
    ∃ d', setChannel fl fs d name = .ok d' ∧ ChannelSet fl D name c k bits d' := by
  have hnames : ∀ n ∈ solar ++ others, n.length ≤ 6 ∧ n ≠ str "Undefi" := by decide
  have hletter : ∃ letter, Letter quantity name letter ∧ (quantity, letter) ∈ quantities := by
    rcases hqq with rfl | rfl
    · exact ⟨_, .temperature (by decide), by decide⟩
    · rcases List.mem_append.1 hm with h | h
      · exact ⟨_, .solar (by decide) h, by decide⟩
      · exact ⟨_, .other (by decide) h, by decide⟩
  obtain ⟨letter, hle, hmem⟩ := hletter
  refine C90_channel_partial fl fs D hs d hd name c k bits quantity letter hc hraw hsize hn (hnames name hm).1
    (hnames name hm).2 hk hb (by omega) (by rw [hq]; rfl) hle ?_
  intro i t hi ht
  have h2 : 2 ^ bits ≤ 2 ^ 10 := Nat.pow_le_pow_right (by omega) hb10
  have hi' : i < 1024 := by omega
  have := quantities_askable
  rw [List.all_eq_true] at this
  have := this i (List.mem_range.2 hi')
  rw [List.all_eq_true] at this
  have := this _ hmem
  rw [Bool.and_eq_true, decide_eq_true_eq, bne_iff_ne, ← decimal_dec4 (by omega), numeral_decimal ht] at this
  exact ⟨this.1, .inl this.2⟩

/-- Only six characters of a name count: the channel of a file with a longer name takes the number, the name and
the variable of another channel. -/
theorem C90_violated_names {F : Type} (fl : Floats F) (fs : Files) (D : Directory) (hs : StoredDb D fs) (d : Db1 F)
    (hd : Used fl fs D.path d) (long name : Bytes) (c : Channel) (k : Nat) (quantity : Bytes)
    (hc : D.channels long = some c) (hraw : c.raw ≠ []) (hsize : c.raw.length < 2 ^ 31)
    (hn : ShortNames D.info) (hm : name ∈ solar ++ others) (hk : IsChannel D.info name k) (hlong : long ≠ name)
    (hlen : long.length ≤ 60) (hsix : long.take 6 = name)
    (hb : NumberAt D.info "Image:BitsPerPixel" 10 10)
    (hq : channelEntry D.info k "Variable" = some quantity) (hqq : quantity = str "Temperature" ∨ quantity = str "Radiance") :
    ∃ d', setChannel fl fs d long = .ok d' ∧ channelName d' = .ok (some name) ∧ channelName d' ≠ .ok (some long) ∧
      rawData d' = some c.raw := by
  have hnames : ∀ n ∈ solar ++ others, n.length ≤ 6 ∧ n ≠ str "Undefi" := by decide
  have hletter : ∃ letter, Letter quantity name letter ∧ (quantity, letter) ∈ quantities := by
    rcases hqq with rfl | rfl
    · exact ⟨_, .temperature (by decide), by decide⟩
    · rcases List.mem_append.1 hm with h | h
      · exact ⟨_, .solar (by decide) h, by decide⟩
      · exact ⟨_, .other (by decide) h, by decide⟩
  obtain ⟨letter, hle, hmem⟩ := hletter
  have hsame : ∀ iname, sameChannel long iname = sameChannel name iname := by
    intro iname
    unfold sameChannel
    rw [hsix, ← hsix, List.take_take]
    rfl
  have hfound : ∀ info, Answers info D.info → channelLoop info long 0 12 = .ok k := by
    intro info hi
    rw [← channelLoop_spec hi hn (hnames name hm).1 (hnames name hm).2 hk 12 0 rfl hk.1]
    generalize 12 = n
    generalize 0 = ich
    induction n generalizing ich with
    | zero => rfl
    | succ n ih =>
      rw [channelLoop, channelLoop]
      congr 1
      funext x
      cases x with
      | none => rfl
      | some iname =>
        dsimp only
        rw [hsame, ih]
  obtain ⟨d', e, h⟩ := setChannel_core fl fs D hs d hd long name c k 10 quantity letter hc hraw hsize hlen hfound hk.1 hk.2.1
    hk.2.2.1 hb (by omega) (by rw [hq]; rfl) hle (by
      intro i t hi ht
      have := quantities_askable
      rw [List.all_eq_true] at this
      have := this i (List.mem_range.2 hi)
      rw [List.all_eq_true] at this
      have := this _ hmem
      rw [Bool.and_eq_true, decide_eq_true_eq, bne_iff_ne, ← decimal_dec4 (by omega), numeral_decimal ht] at this
      exact ⟨this.1, .inl this.2⟩)
  refine ⟨d', e, h.named, ?_, h.data⟩
  rw [h.named]
  intro e
  injection e with e
  injection e with e
  exact hlong e.symm

/-- With a name of the variable of 31 characters or more all counts have the same value: the key is cut before the
count. -/
theorem C90_violated_long_variable {F : Type} (fl : Floats F) (d : Db1 F) (quantity : Bytes) (hl : 31 ≤ quantity.length)
    (hq : channelVariable d = .ok (some quantity)) (i j : Nat) :
    valueCalibrated fl d i = valueCalibrated fl d j := by
  have cut : ∀ rest : Bytes, snprintf 32 (quantity ++ rest) = quantity.take 31 := by
    intro rest
    unfold snprintf
    rw [List.take_append_of_le_length hl]
  have same : ∀ n : Nat, valueCalibrated fl d n = if isDataOk d then (do
      let code ← variableCode d
      match code with
      | some _ => getFloat fl d.calibration (quantity.take 31) 0
      | none => .ub) else .ok (fl.const 0) := by
    intro n
    unfold valueCalibrated
    by_cases hok : isDataOk d = true
    · rw [if_pos hok, if_pos hok, if_neg (show ¬ ((n : Int) < 0 ∧ (n : Int) ≥ d.ncalval) by omega), hq, Outcome.ok_bind]
      cases variableCode d with
      | ok code =>
        rw [Outcome.ok_bind, Outcome.ok_bind]
        cases code with
        | none => rfl
        | some code =>
          dsimp only
          rw [List.append_assoc, List.append_assoc, List.append_assoc, List.append_assoc, cut]
      | throws m => rfl
      | ub => rfl
      | terminate => rfl
      | diverges => rfl
    · rw [if_neg hok, if_neg hok]
  rw [same i, same j]

/-- The test of the range never rejects a count: one beyond the table gets what the file has under its key. -/
theorem C90_violated_range {F : Type} (fl : Floats F) (d : Db1 F) (cal : Option Doc) (hc : Answers d.calibration cal)
    (quantity letter t text : Bytes) (i : Nat) (hok : isDataOk d = true) (hv : channelVariable d = .ok (some quantity))
    (hcode : variableCode d = .ok (some letter)) (ht : Numeral t i) (hl : (countKey quantity letter t).length ≤ 31)
    (he : entry cal (countKey quantity letter t) = some text) (_hout : numberOfCalibration d ≤ i) :
    valueCalibrated fl d i = .ok (fl.atof text) := by
  rw [valueCalibrated_spec hc hok hv hcode ht ⟨hl, .inr (by rw [he]; simp)⟩]
  unfold calibratedValue
  rw [he]

/-- A number of bits above 30 in the file makes setting a channel undefined. -/
theorem C90_violated_bits {F : Type} (fl : Floats F) (fs : Files) (D : Directory) (hs : StoredDb D fs) (d : Db1 F)
    (hd : Used fl fs D.path d) (name : Bytes) (c : Channel) (k bits : Nat)
    (hc : D.channels name = some c) (hraw : c.raw ≠ [])
    (hn : ShortNames D.info) (hl : name.length ≤ 6) (hu : name ≠ str "Undefi") (hk : IsChannel D.info name k)
    (hb : NumberAt D.info "Image:BitsPerPixel" 10 bits) (hb30 : 30 < bits) : setChannel fl fs d name = .ub := by
  obtain ⟨hdir, haoi, hinfo⟩ := used_stored hs hd
  obtain ⟨cal, ecal, hcal⟩ := iniFile_doc (hs.calibration name c hc) (hs.soundCalibration name c hc)
  have hp := hs.short
  have p1 : sprintfPath (D.path ++ str "/" ++ name ++ str ".RAW") = .ok (D.path ++ str "/" ++ name ++ str ".RAW") := by
    unfold sprintfPath
    rw [if_pos]
    simp [pathMax, str]; omega
  have p2 : sprintfPath (D.path ++ str "/" ++ name ++ str ".Calibration") =
      .ok (D.path ++ str "/" ++ name ++ str ".Calibration") := by
    unfold sprintfPath
    rw [if_pos]
    simp [pathMax, str]; omega
  have hfile := hs.raw name c hc
  have hlen : c.raw.length ≠ 0 := by
    intro e; exact hraw (List.length_eq_zero_iff.1 e)
  unfold setChannel hasChannel
  rw [hdir]
  dsimp only
  rw [p1, Outcome.ok_bind, hfile]
  dsimp only
  rw [Outcome.ok_bind]
  dsimp only
  rw [p2, Outcome.ok_bind, ecal, Outcome.ok_bind, p1, Outcome.ok_bind, hfile]
  unfold readRaw
  dsimp only
  rw [if_pos rfl, if_neg (by omega)]
  unfold afterRead channelNumber
  dsimp only
  rw [channelLoop_spec hinfo hn hl hu hk 12 0 rfl hk.1, Outcome.ok_bind]
  unfold bitsPerPixel intQuery isDataOk
  dsimp only
  rw [if_pos (show decide (0 < k) = true from decide_eq_true hk.1), bits_spec hinfo hb, Outcome.ok_bind]
  unfold powerOfTwo
  rw [if_neg (by omega), if_neg (by omega)]
  rfl

/-! ### A directory with one channel -/

/-- A text without blanks and without characters that mean something in INI files. -/
def PlainText (t : Bytes) : Prop := t ≠ [] ∧ ∀ c ∈ t, c ∉ ([32, 9, 11, 12, 13, 61, 59, 35, 10, 0, 34, 39, 91, 93] : List UInt8)

instance (t : Bytes) : Decidable (PlainText t) := by unfold PlainText; infer_instance

theorem plain_neat {t : Bytes} (h : PlainText t) : Neat t := by
  have nb : ∀ c ∈ t, ¬ IsBlanks [c] := by
    intro c hc hb
    have h1 := h.2 c hc
    have h2 := hb c (by simp)
    rcases h2 with rfl | rfl | rfl | rfl | rfl <;> exact h1 (by decide)
  constructor
  · cases t with
    | nil => exact absurd rfl h.1
    | cons c r => exact ⟨c, r, rfl, nb c (by simp)⟩
  · rcases List.eq_nil_or_concat t with e | ⟨r, c, rfl⟩
    · exact absurd e h.1
    · exact ⟨c, r, List.concat_eq_append, nb c (by simp)⟩

/-- A line "key=value". -/
def plainLine (k v : String) : Item := .plain [] (str k) [] [] (str v) [] none
/-- A line "[name]". -/
def secLine (n : String) : Item := .sec [] (str n) []

theorem plainLine_ok {k v : String} (hk : PlainText (str k)) (hv : PlainText (str v))
    (hl : (str k).length + (str v).length ≤ 1000) : (plainLine k v).Ok ∧ (plainLine k v).Line := by
  have nm : ∀ (c : UInt8) (t : Bytes), PlainText t → c ∈ ([32, 9, 11, 12, 13, 61, 59, 35, 10, 0, 34, 39, 91, 93] : List UInt8) →
      c ∉ t := by
    intro c t ht hc hm
    exact ht.2 c hm hc
  have nh : ∀ (c : UInt8) (t : Bytes), PlainText t → c ∈ ([32, 9, 11, 12, 13, 61, 59, 35, 10, 0, 34, 39, 91, 93] : List UInt8) →
      t.head? ≠ some c := by
    intro c t ht hc hm
    exact nm c t ht hc (List.mem_of_mem_head? hm)
  have nil : IsBlanks [] := by intro c hc; cases hc
  refine ⟨⟨nil, nil, nil, nil, plain_neat hk, nm _ _ hk (by decide), ?_, plain_neat hv, nm _ _ hv (by decide),
    nm _ _ hv (by decide), ?_, by intro m t e; cases e⟩, ?_, ?_, ?_⟩
  · intro h
    simp only [List.mem_cons, List.not_mem_nil, or_false] at h
    rcases h with h | h | h
    · exact nh _ _ hk (by decide) h
    · exact nh _ _ hk (by decide) h
    · exact nh _ _ hk (by decide) h
  · intro h
    simp only [List.mem_cons, List.not_mem_nil, or_false] at h
    rcases h with h | h
    · exact nh _ _ hv (by decide) h
    · exact nh _ _ hv (by decide) h
  · have h1 := nm 10 _ hk (by decide)
    have h2 := nm 10 _ hv (by decide)
    simp [plainLine, Item.text, remarkText, h1, h2]
  · have h1 := nm 0 _ hk (by decide)
    have h2 := nm 0 _ hv (by decide)
    simp [plainLine, Item.text, remarkText, h1, h2]
  · simp [plainLine, Item.text, remarkText]
    omega

theorem secLine_ok {n : String} (hn : PlainText (str n)) (hl : (str n).length ≤ 1000) :
    (secLine n).Ok ∧ (secLine n).Line := by
  have nm : ∀ c ∈ ([32, 9, 11, 12, 13, 61, 59, 35, 10, 0, 34, 39, 91, 93] : List UInt8), c ∉ str n := by
    intro c hc hm
    exact hn.2 c hm hc
  refine ⟨⟨(by intro c hc; cases hc), hn.1, nm _ (by decide)⟩, ?_, ?_, ?_⟩
  · have := nm 10 (by decide)
    simp [secLine, Item.text, this]
  · have := nm 0 (by decide)
    simp [secLine, Item.text, this]
  · simp [secLine, Item.text]
    omega

/-- `INFO.DBI` with one channel. -/
def anInfo : Doc := [secLine "Image", plainLine "Pixels" "2", plainLine "Lines" "1", plainLine "BitsPerPixel" "1",
  secLine "Satellite", plainLine "Name" "MSG1", secLine "Channel9", plainLine "Name" "IR_108",
  plainLine "Variable" "Temperature"]
def aCalibration : Doc := [secLine "Calibration", plainLine "Slope" "0.5", secLine "Temperature", plainLine "T(0)" "210.5",
  plainLine "T(1)" "211"]
def anAoi : Doc := [plainLine "COFF" "3", plainLine "LOFF" "5"]

def aDb : Directory := ⟨str "data", some anAoi, some anInfo,
  fun name => if name = str "IR_108" then some ⟨[1, 0, 0, 0], some aCalibration⟩ else none⟩

def someFiles : Files := fun p =>
  if p = str "data/AoI" then docFile (some anAoi)
  else if p = str "data/INFO.DBI" then docFile (some anInfo)
  else if p = str "data/IR_108.RAW" then some ⟨[1, 0, 0, 0], true⟩
  else if p = str "data/IR_108.Calibration" then docFile (some aCalibration)
  else none

theorem aDb_stored : StoredDb aDb someFiles := by
  have sec : ∀ n : String, (58 : UInt8) ∉ str n → ∀ w m a, Item.sec w m a = secLine n → (58 : UInt8) ∉ m := by
    intro n hn w m a e
    unfold secLine at e
    injection e with _ e _
    rw [e]
    exact hn
  have pl : ∀ (k v : String) w m a, Item.sec w m a ≠ plainLine k v := by
    intro k v w m a e
    unfold plainLine at e
    cases e
  have hname : ∀ name c, aDb.channels name = some c → name = str "IR_108" ∧ c = ⟨[1, 0, 0, 0], some aCalibration⟩ := by
    intro name c h
    change (if name = str "IR_108" then _ else _) = _ at h
    split at h
    · rename_i e; injection h with h; exact ⟨e, h.symm⟩
    · cases h
  refine ⟨rfl, rfl, ?_, ?_, ?_, ?_, ?_, by decide⟩
  · intro name c h
    obtain ⟨rfl, rfl⟩ := hname name c h
    rfl
  · intro name c h
    obtain ⟨rfl, rfl⟩ := hname name c h
    rfl
  · intro items e
    have e : some anAoi = some items := e
    injection e with e
    subst e
    constructor
    · intro i hi
      simp only [anAoi, List.mem_cons, List.not_mem_nil, or_false] at hi
      rcases hi with rfl | rfl <;> exact plainLine_ok (by decide) (by decide) (by decide)
    · intro w n a h
      simp only [anAoi, List.mem_cons, List.not_mem_nil, or_false] at h
      rcases h with h | h <;> exact absurd h (pl _ _ _ _ _)
  · intro items e
    have e : some anInfo = some items := e
    injection e with e
    subst e
    constructor
    · intro i hi
      simp only [anInfo, List.mem_cons, List.not_mem_nil, or_false] at hi
      rcases hi with rfl | rfl | rfl | rfl | rfl | rfl | rfl | rfl | rfl <;>
        first
        | exact plainLine_ok (by decide) (by decide) (by decide)
        | exact secLine_ok (by decide) (by decide)
    · intro w n a h
      simp only [anInfo, List.mem_cons, List.not_mem_nil, or_false] at h
      rcases h with h | h | h | h | h | h | h | h | h <;>
        first
        | exact absurd h (pl _ _ _ _ _)
        | exact sec _ (by decide) _ _ _ h
  · intro name c h items e
    obtain ⟨rfl, rfl⟩ := hname name c h
    have e : some aCalibration = some items := e
    injection e with e
    subst e
    constructor
    · intro i hi
      simp only [aCalibration, List.mem_cons, List.not_mem_nil, or_false] at hi
      rcases hi with rfl | rfl | rfl | rfl | rfl <;>
        first
        | exact plainLine_ok (by decide) (by decide) (by decide)
        | exact secLine_ok (by decide) (by decide)
    · intro w n a h
      simp only [aCalibration, List.mem_cons, List.not_mem_nil, or_false] at h
      rcases h with h | h | h | h | h <;>
        first
        | exact absurd h (pl _ _ _ _ _)
        | exact sec _ (by decide) _ _ _ h

theorem aDb_channel : IsChannel aDb.info (str "IR_108") 9 := by
  refine ⟨by omega, by omega, by decide +kernel, ?_⟩
  have : ∀ j : Fin 9, 1 ≤ j.val → channelEntry aDb.info j.val "Name" ≠ some (str "IR_108") := by decide +kernel
  intro j h1 h2
  exact this ⟨j, h2⟩ h1

theorem aDb_names : ShortNames aDb.info := by
  have : ∀ j : Fin 13, 1 ≤ j.val → ∀ n, channelEntry aDb.info j.val "Name" = some n → n.length ≤ 6 := by
    have h : ∀ j : Fin 13, 1 ≤ j.val → channelEntry aDb.info j.val "Name" = none ∨
        channelEntry aDb.info j.val "Name" = some (str "IR_108") := by decide +kernel
    intro j h1 n e
    rcases h j h1 with h | h
    · rw [h] at e; cases e
    · rw [h] at e; injection e with e; rw [← e]; decide
  intro k n h1 h2
  exact this ⟨k, by omega⟩ h1 n

/-- The directory above: the samples, two counts, and their values. -/
theorem aDb_set {F : Type} (fl : Floats F) (d : Db1 F) (hd : Used fl someFiles aDb.path d) :
    ∃ d', setChannel fl someFiles d (str "IR_108") = .ok d' ∧
      ChannelSet fl aDb (str "IR_108") ⟨[1, 0, 0, 0], some aCalibration⟩ 9 1 d' :=
  C90_seviri fl someFiles aDb aDb_stored d hd _ _ 9 1 (str "Temperature") rfl (by decide) (by decide) aDb_names (by decide)
    aDb_channel (.inr ⟨str "1", by decide +kernel, by decide, by decide, by decide⟩) (by omega) (by decide +kernel) (.inl rfl)

example {F : Type} (fl : Floats F) : ∃ d d' : Db1 F, openDir someFiles .fresh (str "data") = .ok d ∧
    setChannel fl someFiles d (str "IR_108") = .ok d' ∧ rawData d' = some [1, 0, 0, 0] ∧ numberOfCalibration d' = 2 ∧
    calibrationTable d' = some [fl.atof (str "210.5"), fl.atof (str "211")] := by
  obtain ⟨d, e, _⟩ := openDir_stored (F := F) aDb_stored .fresh
  obtain ⟨d', e', h⟩ := aDb_set fl d (.opened _ _ e)
  refine ⟨d, d', e, e', h.data, h.counts, ?_⟩
  obtain ⟨l, h1, h2, h3⟩ := h.table
  rw [h1]
  have z : Numeral (str "0") 0 := ⟨⟨by decide, by decide, by decide⟩, by decide, by decide⟩
  have o : Numeral (str "1") 1 := ⟨⟨by decide, by decide, by decide⟩, by decide, by decide⟩
  have e0 := h3 (str "Temperature") (str "T") 0 _ (by decide +kernel) (.temperature (by decide)) (by decide) z
  have e1 := h3 (str "Temperature") (str "T") 1 _ (by decide +kernel) (.temperature (by decide)) (by decide) o
  have v0 : entry (some aCalibration) (countKey (str "Temperature") (str "T") (str "0")) = some (str "210.5") := by decide +kernel
  have v1 : entry (some aCalibration) (countKey (str "Temperature") (str "T") (str "1")) = some (str "211") := by decide +kernel
  unfold calibratedValue at e0 e1
  dsimp only at e0 e1
  rw [v0] at e0
  rw [v1] at e1
  match l, h2, e0, e1 with
  | [a, b], _, e0, e1 =>
    simp at e0 e1
    rw [e0, e1]

end Msat.Props
