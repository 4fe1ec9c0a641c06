import Verif.Lemmas.HritFile
import Verif.Props.C05

/-
C87 Reading an xRIT file of any type gives the content of its data field.

The specification (Spec/HritFile.lean) is a file: a header made of records, the data field it
announces, and any bytes after it.
-/
namespace Msat.Props
open Msat Machine Spec Hrit HritSpec Layout

theorem fileOk_plain {ty : Nat} {rs : List Rec} {data : Bytes} (h1 : ty < 2 ^ 8)
    (h2 : 8 * data.length < 2 ^ 64) (h3 : 16 + (rs.flatMap Rec.encode).length < 2 ^ 32)
    (h4 : ∀ r ∈ rs, r.InRange) (h5 : ∀ qs, Rec.lineQuality qs ∉ rs) : FileOk ty rs data :=
  ⟨h1, h2, h3, h4, fun a qs b e => absurd (e ▸ by simp) (h5 qs)⟩

/-- An annotation record, with this product. -/
def annotated (product : String) : List Rec :=
  [.annotation (str "L-000-MSG1__-" ++ str product ++ str "-_________-PRO______-200601011200-__")]

/-- The header of a compressed image of 3 columns and 2 lines. -/
def anImage : List Rec := annotated "MSG1________" ++ [.imageStructure 10 3 2 1, .segmentId 321 4 3 1 8 2]

/-- A machine with memory, whose decompression library gives a ramp. -/
def aMachine : Env :=
  { alloc := fun _ => true, decode := fun _ _ _ _ _ => .ok [10, 20, 30, 40, 50, 60, 70, 80],
    creatable := fun _ => true }

theorem annotated_ok (ty : Nat) (h : ty < 2 ^ 8) (data : Bytes) (hd : 8 * data.length < 2 ^ 64) :
    FileOk ty (annotated "GOES10______") data ∧ FileOk ty (annotated "MSG1________") data := by
  constructor
  all_goals
    refine fileOk_plain h hd (by decide +kernel) ?_ (by simp [annotated])
    intro r hr
    simp only [annotated, List.mem_singleton] at hr
    subst hr
    simp only [Rec.InRange]
    decide +kernel

theorem anImage_ok (data : Bytes) (hd : 8 * data.length < 2 ^ 64) : FileOk 0 anImage data := by
  refine fileOk_plain (by decide) hd (by decide +kernel) ?_ (by simp [anImage, annotated])
  intro r hr
  simp only [anImage, annotated, List.mem_append, List.mem_cons, List.not_mem_nil, or_false] at hr
  rcases hr with rfl | rfl | rfl <;> simp only [Rec.InRange] <;> decide +kernel

/-- C87, text messages: the data field, all of it. -/
theorem C87_text (env : Env) (rs : List Rec) (data rest : Bytes) (hf : FileOk 2 rs data)
    (hm : env.alloc data.length = true) (h0 : data ≠ []) :
    ∃ h, readFile env (fileOf 2 rs data rest)
      = .ok (h, { Data.fresh with typecode := some 2, text := some data }, []) := by
  have hl : data.length ≠ 0 := by simpa using h0
  refine ⟨headerOf .fresh 2 rs data, ?_⟩
  rw [readFile_eq hf]
  simp only [readData, headerOf_typecode, dataField_file _ _ _ _ _ _ hm, Outcome.ok_bind, textData,
    if_neg hl, new, hm, if_true, Outcome.pure_eq]
  rfl

example : ∃ h, readFile aMachine (fileOf 2 (annotated "MSG1________") (str "hello") [1, 2])
    = .ok (h, { Data.fresh with typecode := some 2, text := some (str "hello") }, []) :=
  C87_text aMachine _ _ _ (annotated_ok 2 (by decide) _ (by decide +kernel)).2 rfl (by decide)

/-- C87, data collection messages: nothing is read of them. -/
theorem C87_dcp (env : Env) (rs : List Rec) (data rest : Bytes) (hf : FileOk 130 rs data) :
    ∃ h, readFile env (fileOf 130 rs data rest)
      = .ok (h, { Data.fresh with typecode := some 130 }, []) := by
  refine ⟨headerOf .fresh 130 rs data, ?_⟩
  rw [readFile_eq hf]
  simp only [readData, headerOf_typecode, Outcome.pure_eq]
  rfl

example : ∃ h, readFile aMachine (fileOf 130 (annotated "MSG1________") [1, 2, 3] [])
    = .ok (h, { Data.fresh with typecode := some 130 }, []) :=
  C87_dcp aMachine _ _ _ (annotated_ok 130 (by decide) _ (by decide +kernel)).2

/-- C87, compressed images: the samples of the first `columns × lines` pixels that the decompression
library makes of the data field, with the format, the depth and the size the header gives. -/
theorem C87_image (env : Env) (rs : List Rec) (data rest : Bytes) (hf : FileOk 0 rs data)
    (bpp cols lines comp sc ch sq st en format : Nat)
    (hs : structureOf rs = some (bpp, cols, lines, comp)) (hc : comp ≠ 0)
    (hid : segmentOf rs = some (sc, ch, sq, st, en, format)) (hfm : format = 1 ∨ format = 2 ∨ format = 3)
    (img : List Nat) (hd : env.decode format bpp cols lines data = .ok img)
    (hlen : cols * lines ≤ img.length)
    (hm : env.alloc data.length = true) (hm' : env.alloc (2 * (cols * lines)) = true) :
    ∃ h, readFile env (fileOf 0 rs data rest) = .ok (h, { Data.fresh with
      typecode := some 0, image := some ⟨cols * lines, img.take (cols * lines)⟩ }, []) := by
  refine ⟨headerOf .fresh 0 rs data, ?_⟩
  rw [readFile_eq hf]
  have h1 := headerOf_structure .fresh 0 rs data
  have h2 := headerOf_segment .fresh 0 rs data
  rw [hs] at h1
  rw [hid] at h2
  simp only [Option.map_some, Option.some_or] at h1 h2
  simp only [readData, headerOf_typecode, dataField_file _ _ _ _ _ _ hm, Outcome.ok_bind, imageData,
    h1, h2, imageStructOf, if_neg hc, decodeImage, new, hm, hm', if_true, if_pos hfm, hd,
    if_neg (Nat.not_lt.2 hlen), Outcome.pure_eq]
  rfl

example : ∃ h, readFile aMachine (fileOf 0 anImage [9, 8, 7] []) = .ok (h, { Data.fresh with
    typecode := some 0, image := some ⟨6, [10, 20, 30, 40, 50, 60]⟩ }, []) :=
  C87_image aMachine anImage _ _ (anImage_ok _ (by decide +kernel)) 10 3 2 1 321 4 3 1 8 2 rfl (by decide)
    rfl (by decide) _ rfl (by decide) rfl rfl

/-- **Partial.** C87, uncompressed images: as many 16 bit samples as the data field has room for, each
read with its first byte as the least significant one, while the length of the image counts bytes.
Missing: the samples themselves, which the file stores most significant byte first (below), and their
number. -/
theorem C87_uncompressed_partial (env : Env) (rs : List Rec) (data rest : Bytes) (hf : FileOk 0 rs data)
    (bpp cols lines : Nat) (hs : structureOf rs = some (bpp, cols, lines, 0))
    (hm : env.alloc data.length = true) :
    ∃ h samples len, readFile env (fileOf 0 rs data rest) = .ok (h, { Data.fresh with
        typecode := some 0, image := some ⟨len, samples⟩ }, []) ∧
      samples.length = data.length / 2 ∧ len = data.length ∧
      ∀ i, 2 * i + 1 < data.length → samples[i]? = some (leVal ((data.drop (2 * i)).take 2)) := by
  have h1 := headerOf_structure .fresh 0 rs data
  rw [hs] at h1
  simp only [Option.map_some, Option.some_or] at h1
  have key : ∀ n (d : Bytes), d.length ≤ n → (samplesOf d).length = d.length / 2 ∧
      ∀ i, 2 * i + 1 < d.length → (samplesOf d)[i]? = some (leVal ((d.drop (2 * i)).take 2)) := by
    intro n
    induction n with
    | zero =>
      intro d hd
      have : d = [] := List.eq_nil_of_length_eq_zero (by omega)
      subst this; simp [samplesOf]
    | succ n ih =>
      intro d hd
      match d, hd with
      | [], _ => simp [samplesOf]
      | [b], _ => simp [samplesOf]
      | b0 :: b1 :: bs, hd =>
        obtain ⟨e1, e2⟩ := ih bs (by simp at hd; omega)
        refine ⟨by simp only [samplesOf, List.length_cons, e1]; omega, ?_⟩
        intro i hi
        cases i with
        | zero => simp [samplesOf, load, leVal]
        | succ i =>
          have := e2 i (by simp at hi; omega)
          simp only [samplesOf, List.getElem?_cons_succ, this]
          rfl
  refine ⟨headerOf .fresh 0 rs data, samplesOf data, data.length, ?_, (key _ data (Nat.le_refl _)).1, rfl,
    (key _ data (Nat.le_refl _)).2⟩
  rw [readFile_eq hf]
  simp only [readData, headerOf_typecode, dataField_file _ _ _ _ _ _ hm, Outcome.ok_bind, imageData,
    h1, imageStructOf, if_true, new, hm, Outcome.pure_eq]
  rfl

example : ∃ rs, FileOk 0 rs [1, 0, 2, 0] ∧ structureOf rs = some (10, 2, 1, 0) :=
  ⟨[.imageStructure 10 2 1 0], fileOk_plain (by decide) (by decide) (by decide +kernel)
    (by intro r hr; simp only [List.mem_singleton] at hr; subst hr; simp only [Rec.InRange]; decide)
    (by simp), rfl⟩

/-- **Partial.** C87, meteorological messages: the data field, all of it.
Missing: nothing should be written (below). -/
theorem C87_gts_partial (env : Env) (rs : List Rec) (data rest : Bytes) (hf : FileOk 1 rs data)
    (hm : env.alloc data.length = true) (h0 : data ≠ []) (hmax : data.length ≤ 15000 * 65535)
    (text : Bytes) (ha : annotation rs = some text) :
    ∃ h w, readFile env (fileOf 1 rs data rest)
      = .ok (h, { Data.fresh with typecode := some 1, gts := some data }, w) := by
  have hl : ¬ (data.length = 0 ∨ data.length > 15000 * 65535) := by
    have : data.length ≠ 0 := by simpa using h0
    omega
  have h1 := headerOf_annotation .fresh 1 rs data
  rw [ha] at h1
  simp only [Option.map_some, Option.some_or] at h1
  refine ⟨headerOf .fresh 1 rs data, dumpGts env (text ++ str ".bin") data, ?_⟩
  rw [readFile_eq hf]
  simp only [readData, headerOf_typecode, dataField_file _ _ _ _ _ _ hm, Outcome.ok_bind, gtsData,
    if_neg hl, new, hm, if_true, Outcome.pure_eq, h1]
  rfl

example : ∃ h w, readFile aMachine (fileOf 1 (annotated "MSG1________") [1, 2, 3] [])
    = .ok (h, { Data.fresh with typecode := some 1, gts := some [1, 2, 3] }, w) :=
  C87_gts_partial aMachine _ _ _ (annotated_ok 1 (by decide) _ (by decide +kernel)).2 rfl (by decide)
    (by decide) _ rfl

/-! ### key messages -/

theorem mem_u2 {buf : Bytes} {off : Nat} (h : off + 2 ≤ buf.length) : ∃ v, readField .u2 buf off = .ok v :=
  readField_total .u2 buf off h rfl

theorem keyMessage_run (ρ : Path → Val) (pre post : Bytes) (hr : keyMessageLay.InRange ρ) :
    ∃ num pub, run keyMessage (pre ++ keyMessageLay.encode ρ ++ post) pre.length
      = .ok ([([.f "User_Station_number"], ρ [.f "User_Station_number"]), ([.f "Key_Number"], num),
              ([.f "Public_key"], pub), ([.f "Public_Key_CRC"], ρ [.f "Public_Key_CRC"])], 197) := by
  have hlen : (keyMessageLay.encode ρ).length = 197 := Lay.encode_length _ _ hr
  have hp := C05_key_message_partial ρ pre post hr
  have hshape : ∀ b, keyMessage b = ([⟨[.f "User_Station_number"], b + 0 + 0, .u2⟩,
      ⟨[.f "Key_Number"], b + 0 + 1, .u1⟩, ⟨[.f "Public_key"], b + 0 + 2, .mem 192 192⟩,
      ⟨[.f "Public_Key_CRC"], b + 0 + 195, .u2⟩], 197) := fun b => rfl
  rw [hshape] at hp
  have r1 := hp ⟨[.f "User_Station_number"], pre.length + 0 + 0, .u2⟩ (by simp) (by simp) (by simp)
  have r4 := hp ⟨[.f "Public_Key_CRC"], pre.length + 0 + 195, .u2⟩ (by simp) (by simp) (by simp)
  have hbl : (pre ++ keyMessageLay.encode ρ ++ post).length = pre.length + 197 + post.length := by
    simp only [List.length_append, hlen]
  generalize pre ++ keyMessageLay.encode ρ ++ post = buf at *
  obtain ⟨num, r2⟩ := readField_total .u1 buf (pre.length + 0 + 1) (by simp only [Kind.width]; omega) rfl
  obtain ⟨pub, r3⟩ := readField_total (.mem 192 192) buf (pre.length + 0 + 2)
    (by simp only [Kind.width]; omega) rfl
  refine ⟨num, pub, ?_⟩
  simp only [Nat.add_zero] at r1 r2 r3 r4
  simp only [run, hshape, runReads, Nat.add_zero, r1, r2, r3, r4, Outcome.ok_bind, Outcome.pure_eq]

theorem keyLoop_keys (ρs : List (Path → Val)) : ∀ (pre post : Bytes),
    (∀ ρ ∈ ρs, keyMessageLay.InRange ρ) →
    ∃ ks, keyLoop (pre ++ (ρs.flatMap keyMessageLay.encode ++ post)) pre.length ρs.length = .ok ks ∧
      ks.map (fun k => (k.lookup [.f "User_Station_number"], k.lookup [.f "Public_Key_CRC"]))
        = ρs.map (fun ρ => (some (ρ [.f "User_Station_number"]), some (ρ [.f "Public_Key_CRC"]))) := by
  induction ρs with
  | nil => intro pre post _; exact ⟨[], rfl, rfl⟩
  | cons ρ ρs ih =>
    intro pre post h
    have hr := h ρ (by simp)
    obtain ⟨num, pub, hk⟩ := keyMessage_run ρ pre (ρs.flatMap keyMessageLay.encode ++ post) hr
    obtain ⟨ks, h1, h2⟩ := ih (pre ++ keyMessageLay.encode ρ) post (fun ρ' h' => h ρ' (by simp [h']))
    have hlen : (keyMessageLay.encode ρ).length = 197 := Lay.encode_length _ _ hr
    simp only [List.append_assoc, List.length_append, hlen] at hk h1
    refine ⟨[([.f "User_Station_number"], ρ [.f "User_Station_number"]), ([.f "Key_Number"], num),
              ([.f "Public_key"], pub), ([.f "Public_Key_CRC"], ρ [.f "Public_Key_CRC"])] :: ks, ?_, ?_⟩
    · simp only [List.flatMap_cons, List.append_assoc, List.length_cons, keyLoop, hk, h1,
        Outcome.ok_bind, Outcome.pure_eq]
    · rw [List.map_cons, List.map_cons, h2]
      rfl

/-- **Partial.** C87, key messages: as many keys as there are in the data field, in order, each with
its station number and its checksum.
Missing: the key numbers and the keys, which are misread (`C05_violated_key_message`). -/
theorem C87_keys_partial (env : Env) (rs : List Rec) (ρs : List (Path → Val)) (tail rest : Bytes)
    (hρ : ∀ ρ ∈ ρs, keyMessageLay.InRange ρ) (ht : tail.length < 197)
    (hn : 0 < ρs.length) (hmax : ρs.length ≤ 65536)
    (hf : FileOk 3 rs (ρs.flatMap keyMessageLay.encode ++ tail))
    (hm : ∀ n, env.alloc n = true) :
    ∃ h ks, readFile env (fileOf 3 rs (ρs.flatMap keyMessageLay.encode ++ tail) rest)
        = .ok (h, { Data.fresh with typecode := some 3, key := some ks }, []) ∧
      ks.map (fun k => (k.lookup [.f "User_Station_number"], k.lookup [.f "Public_Key_CRC"]))
        = ρs.map (fun ρ => (some (ρ [.f "User_Station_number"]), some (ρ [.f "Public_Key_CRC"]))) := by
  obtain ⟨ks, h1, h2⟩ := keyLoop_keys ρs [] tail hρ
  simp only [List.nil_append, List.length_nil] at h1
  have hlen : (ρs.flatMap keyMessageLay.encode ++ tail).length = 197 * ρs.length + tail.length := by
    rw [List.length_append]
    congr 1
    clear h1 h2 hf hn hmax
    induction ρs with
    | nil => rfl
    | cons ρ ρs ih =>
      have hlen : (keyMessageLay.encode ρ).length = 197 := Lay.encode_length _ _ (hρ ρ (by simp))
      rw [List.flatMap_cons, List.length_append, ih (fun ρ' h' => hρ ρ' (by simp [h'])), hlen,
        List.length_cons]
      omega
  have hq : (ρs.flatMap keyMessageLay.encode ++ tail).length / 197 % 2 ^ 32 = ρs.length := by
    rw [hlen]; omega
  generalize ρs.flatMap keyMessageLay.encode ++ tail = data at *
  refine ⟨headerOf .fresh 3 rs data, ks, ?_, h2⟩
  rw [readFile_eq hf]
  simp only [readData, headerOf_typecode, dataField_file _ _ _ _ _ _ (hm _), Outcome.ok_bind, keyData,
    hq, if_neg (show ¬ (ρs.length ≥ 2 ^ 31 ∨ ρs.length > 65536 ∨ ρs.length = 0) by omega), new, hm,
    if_true, h1, Outcome.pure_eq]
  rfl

/-- Two keys and three more bytes. -/
example : ∃ h ks, readFile aMachine (fileOf 3 (annotated "MSG1________")
      ([keyMessageLay.zero, keyMessageLay.zero].flatMap keyMessageLay.encode ++ [1, 2, 3]) [])
        = .ok (h, { Data.fresh with typecode := some 3, key := some ks }, []) ∧
      ks.map (fun k => (k.lookup [.f "User_Station_number"], k.lookup [.f "Public_Key_CRC"]))
        = [(some (.nat 0), some (.nat 0)), (some (.nat 0), some (.nat 0))] :=
  C87_keys_partial aMachine _ [keyMessageLay.zero, keyMessageLay.zero] [1, 2, 3] []
    (by
      intro ρ hρ
      have : ρ = keyMessageLay.zero := by simpa using hρ
      rw [this]
      exact Lay.zero_inRange _ (by decide) (by decide))
    (by decide) (by decide) (by decide)
    (annotated_ok 3 (by decide) _ (by decide +kernel)).2 (fun _ => rfl)

/-! ### prologues and epilogues -/

theorem sgsData_spec (env : Env) (ρ : Path → Val) (pad pdata more : Bytes) (hr : sgsCommonLay.InRange ρ)
    (hp : pad.length = 4) (hd : 8 + pdata.length < 2 ^ 32) (hm : env.alloc pdata.length = true) :
    sgsData env (sgsOf ρ pad pdata ++ more)
      = .ok ⟨(sgsCommonLay.reads 0).map (fun r => (r.path, ρ r.path)), 8 + pdata.length, pdata⟩ := by
  have hrun := run_of_agrees sgsCommon_agrees ρ [] (pad ++ (encBE 4 (8 + pdata.length) ++ (pdata ++ more))) hr
  have hlen : (sgsCommonLay.encode ρ).length = 46 :=
    (Lay.encode_length _ _ hr).trans sgsCommonLay_size
  have hdata : sgsOf ρ pad pdata ++ more
      = sgsCommonLay.encode ρ ++ (pad ++ (encBE 4 (8 + pdata.length) ++ (pdata ++ more))) := by
    simp only [sgsOf, List.append_assoc]
  simp only [List.nil_append, List.length_nil, ← hdata, sgsCommonLay_size] at hrun
  rw [hdata] at hrun ⊢
  generalize sgsCommonLay.encode ρ = E at *
  generalize (sgsCommonLay.reads 0).map (fun r => (r.path, ρ r.path)) = M at *
  clear hdata
  have e4 : ui4 (E ++ (pad ++ (encBE 4 (8 + pdata.length) ++ (pdata ++ more)))) (46 + 4)
      = .ok (8 + pdata.length) :=
    ui4_pre (pre := E ++ pad) (post := pdata ++ more) (by simp only [List.append_assoc])
      (by simp only [List.length_append, hlen, hp]) hd
  have es : slice (E ++ (pad ++ (encBE 4 (8 + pdata.length) ++ (pdata ++ more)))) (46 + 8) pdata.length
      = .ok pdata :=
    slice_pre (pre := E ++ (pad ++ encBE 4 (8 + pdata.length))) (post := more)
      (by simp only [List.append_assoc]) (by simp only [List.length_append, hlen, hp, encBE_length]) rfl
  have hu : u32sub (8 + pdata.length) 8 = pdata.length := by unfold u32sub; omega
  simp only [sgsData, hrun, Outcome.ok_bind, e4, hu, new, hm, if_true, es, Outcome.pure_eq]

/-- C87, prologues of foreign satellites: the members of the common header and the data of the
specific header. -/
theorem C87_foreign_prologue (env : Env) (rs : List Rec) (ρ : Path → Val) (pad pdata more rest : Bytes)
    (hr : sgsCommonLay.InRange ρ) (hp : pad.length = 4) (hd : 8 + pdata.length < 2 ^ 32)
    (hf : FileOk 128 rs (sgsOf ρ pad pdata ++ more))
    (text : Bytes) (ha : annotation rs = some text) (hn : ¬ Mentions (productOf text) (str "MSG"))
    (hsat : ∃ s ∈ ["GOES", "GMS", "MTSAT", "NOAA", "METOP"], Mentions (productOf text) (str s))
    (hm : ∀ n, env.alloc n = true) :
    ∃ h, readFile env (fileOf 128 rs (sgsOf ρ pad pdata ++ more) rest)
      = .ok (h, { Data.fresh with
          typecode := some 128,
          sgs := some ⟨(sgsCommonLay.reads 0).map (fun r => (r.path, ρ r.path)), 8 + pdata.length, pdata⟩ }, []) := by
  have h1 := headerOf_annotation .fresh 128 rs (sgsOf ρ pad pdata ++ more)
  rw [ha] at h1
  simp only [Option.map_some, Option.some_or] at h1
  have hc : contains (productOf text) (str "MSG") = false := by
    rw [Bool.eq_false_iff]; exact fun h => hn ((contains_iff _ _).1 h)
  have hfo : foreign (productOf text) = true := by
    unfold foreign
    obtain ⟨s, hs, hsm⟩ := hsat
    have := (contains_iff _ _).2 hsm
    simp only [List.mem_cons, List.not_mem_nil, or_false] at hs
    rcases hs with rfl | rfl | rfl | rfl | rfl <;> simp [this]
  have hs := sgsData_spec env ρ pad pdata more hr hp hd (hm _)
  generalize sgsOf ρ pad pdata ++ more = data at *
  refine ⟨headerOf .fresh 128 rs data, ?_⟩
  rw [readFile_eq hf]
  simp only [readData, headerOf_typecode, dataField_file _ _ _ _ _ _ (hm _), Outcome.ok_bind, h1,
    annotationOf, show (text.drop 13).take 12 = productOf text from rfl, hc, hfo, if_true, hs,
    Outcome.pure_eq]
  rfl

example : sgsCommonLay.InRange sgsCommonLay.zero ∧
    (∀ data : Bytes, 8 * data.length < 2 ^ 64 → FileOk 128 (annotated "GOES10______") data) ∧
    ∃ text, annotation (annotated "GOES10______") = some text ∧ ¬ Mentions (productOf text) (str "MSG") ∧
      Mentions (productOf text) (str "GOES") := by
  refine ⟨Lay.zero_inRange _ (by decide) (by decide), fun d h => (annotated_ok 128 (by decide) d h).1,
    _, rfl, ?_, ?_⟩
  · rw [← contains_iff]; decide +kernel
  · rw [← contains_iff]; decide +kernel

/-- **Partial.** C87, epilogues of MSG: the whole data field is read, and every member but the spin
rates of the landmarks has the value encoded.
Missing: those spin rates (`C05_violated_landmark_SpinRate`). -/
theorem C87_epilogue_partial (env : Env) (rs : List Rec) (ρ : Path → Val) (more rest : Bytes)
    (hr : epilogueDataLay.InRange ρ) (hf : FileOk 129 rs (epilogueDataLay.encode ρ ++ more))
    (text : Bytes) (ha : annotation rs = some text) (hn : Mentions (productOf text) (str "MSG"))
    (hm : env.alloc (epilogueDataLay.encode ρ ++ more).length = true) :
    ∃ h e, readFile env (fileOf 129 rs (epilogueDataLay.encode ρ ++ more) rest)
        = .ok (h, { Data.fresh with typecode := some 129, epilogue := some e }, []) ∧
      (∀ r ∈ epilogueDataLay.reads 0, ¬ defective r.path → (r.path, ρ r.path) ∈ e) ∧
      (∀ m ∈ e, ¬ defective m.1 → m.2 = ρ m.1) := by
  have h1 := headerOf_annotation .fresh 129 rs (epilogueDataLay.encode ρ ++ more)
  rw [ha] at h1
  simp only [Option.map_some, Option.some_or] at h1
  have hc : contains (productOf text) (str "MSG") = true := (contains_iff _ _).2 hn
  have hlen : (epilogueDataLay.encode ρ).length = 380325 :=
    (Lay.encode_length _ _ hr).trans epilogueDataLay_size
  obtain ⟨e, hrun, he1, he2⟩ := epilogueData_within.run (epilogueDataLay.encode ρ ++ more) 0
    (by rw [List.length_append, hlen]; omega)
  obtain ⟨c1, c2, _⟩ := C05_epilogue_partial ρ more hr
  refine ⟨headerOf .fresh 129 rs (epilogueDataLay.encode ρ ++ more), e, ?_, ?_, ?_⟩
  · rw [readFile_eq hf]
    simp only [readData, headerOf_typecode, dataField_file _ _ _ _ _ _ hm, Outcome.ok_bind, h1,
      annotationOf, show (text.drop 13).take 12 = productOf text from rfl, hc, if_true, hrun,
      Outcome.pure_eq]
    rfl
  · intro r hmem hd
    obtain ⟨r', hr', hp⟩ := c2 r hmem hd
    have := he1 r' hr' _ (c1 r' hr' (by rw [hp]; exact hd))
    rwa [hp] at this
  · intro m hmem hd
    obtain ⟨r, hr', hp, hv⟩ := he2 m hmem
    have := c1 r hr' (by rw [hp]; exact hd)
    rw [hv, hp] at this
    exact Outcome.ok.inj this

example : epilogueDataLay.InRange epilogueDataLay.zero ∧
    (∀ data : Bytes, 8 * data.length < 2 ^ 64 → FileOk 129 (annotated "MSG1________") data) ∧
    ∃ text, annotation (annotated "MSG1________") = some text ∧ Mentions (productOf text) (str "MSG") := by
  refine ⟨Lay.zero_inRange _ (by decide) (by decide), fun d h => (annotated_ok 129 (by decide) d h).2,
    _, rfl, ?_⟩
  rw [← contains_iff]; decide +kernel

/-! ### errors -/

/-- The types of file with a data field that is read. -/
def dataTypes : List Nat := [0, 1, 2, 3, 128, 129, 144]

/-- C87: when there is no memory for the data field an exception is thrown. -/
theorem C87_no_memory (env : Env) (ty : Nat) (hty : ty ∈ dataTypes) (rs : List Rec) (data rest : Bytes)
    (hf : FileOk ty rs data) (hm : env.alloc data.length = false) :
    readFile env (fileOf ty rs data rest) = .throws "bad_alloc" := by
  have hd : dataField env (headerOf .fresh ty rs data) (data ++ rest) = .throws "bad_alloc" := by
    unfold dataField new
    rw [headerOf_size, hm]
    rfl
  rw [readFile_eq hf]
  simp only [dataTypes, List.mem_cons, List.not_mem_nil, or_false] at hty
  rcases hty with rfl | rfl | rfl | rfl | rfl | rfl | rfl <;>
    simp only [readData, headerOf_typecode, hd, Outcome.throws_bind] <;> rfl

/-- A file that ends before the data field its header announces kills the process, whatever its
type, instead of raising an exception. -/
theorem C87_violated_short (env : Env) (ty : Nat) (hty : ty ∈ dataTypes) (bits : Nat) (rs : List Rec)
    (data : Bytes) (h1 : bits < 2 ^ 64) (h2 : 16 + (rs.flatMap Rec.encode).length < 2 ^ 32)
    (h3 : ∀ r ∈ rs, r.InRange) (h4 : QualityConsistent rs) (hs : data.length < bits / 8)
    (hm : env.alloc (bits / 8) = true) :
    readFile env (encodeHeader ty bits rs ++ data) = .terminate := by
  have htl : ty < 2 ^ 8 := by
    simp only [dataTypes, List.mem_cons, List.not_mem_nil, or_false] at hty; omega
  unfold readFile
  rw [readHeader_encode .fresh ty bits rs data htl h1 h2 h3 h4, Outcome.ok_bind]
  have hk := primary_foldl rs
      { Header.fresh with
        typecode := ty, totalHeaderLength := 16 + (rs.flatMap Rec.encode).length,
        dataFieldLength := bits, filesize := bits / 8 + (16 + (rs.flatMap Rec.encode).length) }
  generalize List.foldl applyRec _ rs = h at hk
  obtain ⟨k1, _, k2, _⟩ := hk
  dsimp only at k1 k2
  have hd : dataField env h data = .terminate := by
    unfold dataField new
    rw [k2, hm, if_pos rfl, Outcome.ok_bind, if_pos hs]
  simp only [dataTypes, List.mem_cons, List.not_mem_nil, or_false] at hty
  rcases hty with rfl | rfl | rfl | rfl | rfl | rfl | rfl <;>
    simp only [readData, k1, hd, Outcome.terminate_bind]

/-- So does a file of an unknown type. -/
theorem C87_violated_unknown (env : Env) (ty : Nat) (hty : ty ∉ dataTypes) (hd : ty ≠ 130)
    (rs : List Rec) (data rest : Bytes) (hf : FileOk ty rs data) :
    readFile env (fileOf ty rs data rest) = .terminate := by
  rw [readFile_eq hf]
  simp only [dataTypes, List.mem_cons, List.not_mem_nil, or_false, not_or] at hty
  have e := headerOf_typecode .fresh ty rs data
  unfold readData
  split <;> first | rfl | (rename_i h; rw [e] at h; omega)

/-- So does an empty text message. -/
theorem C87_violated_empty_text (env : Env) (rs : List Rec) (rest : Bytes) (hf : FileOk 2 rs [])
    (hm : env.alloc 0 = true) : readFile env (fileOf 2 rs [] rest) = .terminate := by
  rw [readFile_eq hf]
  simp only [readData, headerOf_typecode, dataField_file _ _ _ _ _ _ (show env.alloc ([] : Bytes).length = true from hm),
    Outcome.ok_bind, textData]
  rfl

/-- Reading a meteorological message or a binary file writes: a file named as the annotation says,
which any directory can precede, is created or overwritten with the data field. -/
theorem C87_violated_writes (env : Env) (ty : Nat) (hty : ty = 1 ∨ ty = 144) (rs : List Rec)
    (data rest : Bytes) (hf : FileOk ty rs data) (hm : env.alloc data.length = true) (h0 : data ≠ [])
    (hmax : data.length ≤ 15000 * 65535) (text : Bytes) (ha : annotation rs = some text)
    (hcr : env.creatable (text ++ str ".bin") = true) :
    ∃ h d, readFile env (fileOf ty rs data rest) = .ok (h, d, [(text ++ str ".bin", data)]) := by
  have hl : ¬ (data.length = 0 ∨ data.length > 15000 * 65535) := by
    have : data.length ≠ 0 := by simpa using h0
    omega
  have h1 := headerOf_annotation .fresh ty rs data
  rw [ha] at h1
  simp only [Option.map_some, Option.some_or] at h1
  rcases hty with rfl | rfl
  · refine ⟨headerOf .fresh 1 rs data,
      { Data.fresh with typecode := some 1, gts := some data }, ?_⟩
    rw [readFile_eq hf]
    simp only [readData, headerOf_typecode, dataField_file _ _ _ _ _ _ hm, Outcome.ok_bind, gtsData,
      if_neg hl, new, hm, if_true, Outcome.pure_eq, h1, dumpGts, annotationOf, hcr]
    rfl
  · refine ⟨headerOf .fresh 144 rs data, { Data.fresh with typecode := some 144 }, ?_⟩
    rw [readFile_eq hf]
    simp only [readData, headerOf_typecode, dataField_file _ _ _ _ _ _ hm, Outcome.ok_bind,
      Outcome.pure_eq, h1, annotationOf, hcr, if_true]
    rfl

example : ∃ h d, readFile aMachine (fileOf 1 (annotated "MSG1________") [1, 2, 3] []) = .ok (h, d,
    [(str "L-000-MSG1__-MSG1________-_________-PRO______-200601011200-__.bin", [1, 2, 3])]) :=
  C87_violated_writes aMachine 1 (.inl rfl) _ _ _ (annotated_ok 1 (by decide) _ (by decide +kernel)).2 rfl
    (by decide) (by decide) _ rfl rfl

/-- A meteorological message, binary file, prologue or epilogue without an annotation record
dereferences a null pointer. -/
theorem C87_violated_no_annotation (env : Env) (ty : Nat) (hty : ty ∈ [1, 128, 129, 144]) (rs : List Rec)
    (data rest : Bytes) (hf : FileOk ty rs data) (hm : env.alloc data.length = true) (h0 : data ≠ [])
    (hmax : data.length ≤ 15000 * 65535) (ha : annotation rs = none) :
    readFile env (fileOf ty rs data rest) = .ub := by
  have hl : ¬ (data.length = 0 ∨ data.length > 15000 * 65535) := by
    have : data.length ≠ 0 := by simpa using h0
    omega
  have h1 := headerOf_annotation .fresh ty rs data
  rw [ha] at h1
  have h1 : (headerOf .fresh ty rs data).annotation = none := h1
  simp only [List.mem_cons, List.not_mem_nil, or_false] at hty
  rcases hty with rfl | rfl | rfl | rfl
  all_goals
    rw [readFile_eq hf]
    simp only [readData, headerOf_typecode, dataField_file _ _ _ _ _ _ hm, Outcome.ok_bind, gtsData,
      if_neg hl, new, hm, if_true, Outcome.pure_eq, h1]
    rfl

/-- An image without an image structure record dereferences a null pointer; so does a compressed one
without a segment identification record. -/
theorem C87_violated_no_structure (env : Env) (rs : List Rec) (data rest : Bytes) (hf : FileOk 0 rs data)
    (hm : env.alloc data.length = true)
    (h : structureOf rs = none ∨
      (segmentOf rs = none ∧ ∃ bpp c l comp, structureOf rs = some (bpp, c, l, comp) ∧ comp ≠ 0)) :
    readFile env (fileOf 0 rs data rest) = .ub := by
  have h1 := headerOf_structure .fresh 0 rs data
  have h2 := headerOf_segment .fresh 0 rs data
  rw [readFile_eq hf]
  rcases h with h | ⟨hs, bpp, c, l, comp, h, hc⟩
  · rw [h] at h1
    have h1 : (headerOf .fresh 0 rs data).imageStructure = none := h1
    simp only [readData, headerOf_typecode, dataField_file _ _ _ _ _ _ hm, Outcome.ok_bind, imageData, h1]
    rfl
  · rw [h] at h1
    rw [hs] at h2
    have h2 : (headerOf .fresh 0 rs data).segmentId = none := h2
    simp only [Option.map_some, Option.some_or] at h1
    simp only [readData, headerOf_typecode, dataField_file _ _ _ _ _ _ hm, Outcome.ok_bind, imageData,
      h1, h2, imageStructOf, if_neg hc]
    rfl

/-- The samples of an uncompressed image come out with their bytes swapped: a file that stores the
sample 1 as the bytes 0, 1 gives 256. -/
theorem C87_violated_byte_order (env : Env) (rs : List Rec) (rest : Bytes) (hf : FileOk 0 rs (encBE 2 1))
    (bpp cols lines : Nat) (hs : structureOf rs = some (bpp, cols, lines, 0))
    (hm : env.alloc 2 = true) :
    ∃ h d i, readFile env (fileOf 0 rs (encBE 2 1) rest) = .ok (h, d, []) ∧ d.image = some i ∧
      i.samples = [256] := by
  obtain ⟨h, s, len, e, h1, _, h2⟩ := C87_uncompressed_partial env rs (encBE 2 1) rest hf bpp cols lines hs hm
  refine ⟨h, _, _, e, rfl, ?_⟩
  have h3 := h2 0 (by decide)
  have hl : s.length = 1 := h1
  match s, hl with
  | [x], _ =>
    have : some x = some (leVal [0, 1]) := h3
    show [x] = [256]
    rw [Option.some.inj this]
    rfl

theorem block_last {s : Stmt} {ss tt : List Stmt} {b p : Nat} {k : Kind}
    (h : ∀ p, ∃ r ∈ (s b p).1, r.kind = k) : ∃ r ∈ (block (ss ++ s :: tt) b p).1, r.kind = k := by
  induction ss generalizing p with
  | nil =>
    obtain ⟨r, hr, e⟩ := h p
    exact ⟨r, List.mem_append_left _ hr, e⟩
  | cons t ss ih =>
    obtain ⟨r, hr, e⟩ := ih (p := (t b p).2)
    exact ⟨r, List.mem_append_right _ hr, e⟩

theorem call_kind {f : ReadFrom} {k : Kind} (P : Path) (h : ∀ b, ∃ r ∈ (f b).1, r.kind = k) (b p : Nat) :
    ∃ r ∈ (call P f b p).1, r.kind = k := by
  obtain ⟨r, hr, e⟩ := h (b + p)
  exact ⟨_, List.mem_map_of_mem hr, e⟩

theorem prologue_overflows (b : Nat) : ∃ r ∈ (prologueData b).1, r.kind = .mem 63 24 := by
  have h1 : ∀ b, ∃ r ∈ (blackBodyDataUsed b).1, r.kind = .mem 63 24 := by
    intro base
    refine ⟨⟨[.f "DCRValues"], base, .mem 63 24⟩, ?_, rfl⟩
    unfold blackBodyDataUsed body
    iterate 18 (rw [block]; refine List.mem_append_right _ ?_)
    rw [block]
    exact List.mem_append_left _ (List.mem_singleton.2 rfl)
  have h2 : ∀ b, ∃ r ∈ (radiometricProc b).1, r.kind = .mem 63 24 := by
    intro b
    exact block_last (ss := [_, _]) (call_kind _ h1 b)
  exact block_last (ss := [_, _, _, _]) (call_kind _ h2 b)

/-- Reading the prologue of MSG is undefined whatever it contains: `DCRValues` is copied over the end
of its array. -/
theorem C87_violated_prologue (env : Env) (rs : List Rec) (data rest : Bytes) (hf : FileOk 128 rs data)
    (hm : env.alloc data.length = true)
    (text : Bytes) (ha : annotation rs = some text) (hn : Mentions (productOf text) (str "MSG")) :
    ∀ x, readFile env (fileOf 128 rs data rest) ≠ .ok x := by
  have h1 := headerOf_annotation .fresh 128 rs data
  rw [ha] at h1
  simp only [Option.map_some, Option.some_or] at h1
  have hc : contains (productOf text) (str "MSG") = true := (contains_iff _ _).2 hn
  intro x e
  rw [readFile_eq hf] at e
  simp only [readData, headerOf_typecode, dataField_file _ _ _ _ _ _ hm, Outcome.ok_bind, h1,
    annotationOf, show (text.drop 13).take 12 = productOf text from rfl, hc, if_true] at e
  cases hrun : run prologueData data 0 with
  | ok p =>
    simp only [run] at hrun
    cases hv : runReads (prologueData 0).1 data with
    | ok vs =>
      obtain ⟨r, hr, hk⟩ := prologue_overflows 0
      exact runReads_ub (vs := vs) ⟨r, hr, by rw [hk]; rfl⟩ hv
    | _ => rw [hv] at hrun; exact absurd hrun (by intro h; cases h)
  | _ => rw [hrun] at e; exact absurd e (by intro h; cases h)

end Msat.Props
