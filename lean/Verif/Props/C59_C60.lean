import Mathlib.Data.List.Forall2
import Verif.Props.C30_C31

namespace Msat.Props
open Native NativeSpec Spec Layout Machine

/-! ## C60: packet and line headers -/

theorem packetHeader_agrees : Agrees packetHeader packetHeaderLay := by
  intro b
  agree [packetHeader, packetHeaderLay]
  simp [List.range_succ]

theorem packetHeaderLay_size : packetHeaderLay.size = 38 := by agree [packetHeaderLay]

theorem lineHeader_agrees : Agrees lineHeader lineHeaderLay := by
  intro b
  agree [lineHeader, lineHeaderLay]

theorem lineHeaderLay_size : lineHeaderLay.size = 27 := by agree [lineHeaderLay]

/-- Every member of a packet header, encoded one after the other in 38 bytes, is recovered. -/
theorem C60_packet_header (ρ : Path → Val) (pre post : Bytes) (hr : packetHeaderLay.InRange ρ) :
    run packetHeader (pre ++ packetHeaderLay.encode ρ ++ post) pre.length
      = .ok ((packetHeaderLay.reads 0).map (fun r => (r.path, ρ r.path)), 38) ∧
    (packetHeaderLay.encode ρ).length = 38 := by
  rw [Lay.encode_length _ _ hr, run_of_agrees packetHeader_agrees ρ pre post hr, packetHeaderLay_size]
  exact ⟨rfl, rfl⟩

/-- Every member of a line header, encoded one after the other in 27 bytes, is recovered. -/
theorem C60_line_header (ρ : Path → Val) (pre post : Bytes) (hr : lineHeaderLay.InRange ρ) :
    run lineHeader (pre ++ lineHeaderLay.encode ρ ++ post) pre.length
      = .ok ((lineHeaderLay.reads 0).map (fun r => (r.path, ρ r.path)), 27) ∧
    (lineHeaderLay.encode ρ).length = 27 := by
  rw [Lay.encode_length _ _ hr, run_of_agrees lineHeader_agrees ρ pre post hr, lineHeaderLay_size]
  exact ⟨rfl, rfl⟩

/-- A line header: MSG-1, line 1856 of channel 9. -/
def aLineHeader : Path → Val
  | [.f "TrueRepeatCycleStart"] => .time 17000 43200000 1 2
  | [.f "L10LineMeanAcquisitionTime"] => .time 17000 43500000 0 0
  | [.f "SatelliteId"] => .nat 321
  | [.f "LineNumberInGrid"] => .nat 1856
  | [.f "ChannelId"] => .nat 9
  | _ => .nat 1

example : lineHeaderLay.InRange aLineHeader ∧
    ([.f "LineNumberInGrid"], Val.nat 1856) ∈ (lineHeaderLay.reads 0).map (fun r => (r.path, aLineHeader r.path)) := by
  have : ∀ r ∈ lineHeaderLay.reads 0, r.kind.InRange (aLineHeader r.path) := by
    simp [lineHeaderLay, Lay.struct, Lay.reads, u1, u2, u4, t6, t10, Read.under, aLineHeader, Kind.InRange]
  exact ⟨this, by decide +kernel⟩

/-! ## C59: the lines of an image -/

theorem readLine_ok {bytes data : Bytes} (h : LineBytes bytes data) (rest : Bytes) :
    ∃ pkh lh, readLine (bytes ++ rest) = .ok (⟨pkh, lh, data⟩, rest) := by
  obtain ⟨pkh, lh, rfl, hlh, h38, hn⟩ := h
  refine ⟨pkh, lh, ?_⟩
  have hlt := beVal4_lt (pkh.drop 18)
  rw [hn] at hlt
  have e : u64sub (u64sub (27 + data.length + 15) 15) lhLen = data.length := by
    unfold lhLen u64sub; omega
  unfold readLine
  rw [List.append_assoc, List.append_assoc, readN_append _ _ pkhLen h38]
  simp only [Outcome.ok_bind]
  rw [packetLength_eq h38, Outcome.ok_bind, hn, e, if_neg (by omega), readN_append _ _ lhLen hlh]
  simp only [Outcome.ok_bind]
  rw [readN_append _ _ _ rfl]
  rfl

/-- The lines held for the lines read from number `k` on. -/
def heldFrom : Nat → List (Nat × Bytes × Bytes) → List Held
  | _, [] => []
  | k, x :: xs => ⟨x.1, k⟩ :: heldFrom (k + 1) xs

theorem readLines_ok (items : List (Nat × Bytes × Bytes)) : ∀ (rest : Bytes) (h : Heap) (ls : List Held),
    (∀ x ∈ items, LineBytes x.2.1 x.2.2) →
    readLines (items.map (·.1)) (items.flatMap (·.2.1) ++ rest) h ls
      = .ok (h ++ items.map (fun x => some x.2.2), ls ++ heldFrom h.length items, rest) := by
  induction items with
  | nil => intro rest h ls _; simp [readLines, heldFrom]
  | cons x xs ih =>
    intro rest h ls hx
    obtain ⟨pkh, lh, e⟩ := readLine_ok (hx x (by simp)) (xs.flatMap (·.2.1) ++ rest)
    rw [List.map_cons, List.flatMap_cons, List.append_assoc, readLines, e, Outcome.ok_bind]
    simp only
    rw [ih rest _ _ (fun y hy => hx y (by simp [hy]))]
    simp [heldFrom]

theorem lineOrder_eq (selected : Nat → Bool) (n : Nat) : lineOrder selected n = imageOrder selected n := by
  unfold lineOrder imageOrder
  rw [show List.range 12 = List.range 11 ++ [11] from rfl]
  have h : ∀ l : List Nat, (∀ ic ∈ l, ic ≠ 11) →
      l.flatMap (fun ic => if selected ic then List.replicate (if ic = 11 then 3 else 1) ic else [])
        = l.filter selected := by
    intro l
    induction l with
    | nil => intro _; rfl
    | cons a l ih =>
      intro hl
      rw [List.flatMap_cons, ih (fun ic h => hl ic (by simp [h])), if_neg (hl a (by simp)), List.filter_cons]
      split <;> simp
  have e : ((List.range 11 ++ [11]).flatMap fun ic =>
      if selected ic then List.replicate (if ic = 11 then 3 else 1) ic else [])
      = (List.range 11).filter selected ++ if selected 11 then [11, 11, 11] else [] := by
    rw [List.flatMap_append, h _ (by decide)]
    simp [List.replicate]
  rw [e]
  generalize (List.range 11).filter selected ++ (if selected 11 then [11, 11, 11] else []) = one
  induction n with
  | zero => rfl
  | succ n ih =>
    rw [List.range_succ, List.flatMap_append, ih, List.replicate_succ']
    simp

theorem heldFrom_getLast (items : List (Nat × Bytes × Bytes)) (x : Nat × Bytes × Bytes) :
    ∀ k, (heldFrom k (items ++ [x])).getLast? = some ⟨x.1, k + items.length⟩ := by
  induction items with
  | nil => intro k; simp [heldFrom]
  | cons y ys ih =>
    intro k
    have hne : heldFrom (k + 1) (ys ++ [x]) ≠ [] := by
      intro h
      have := ih (k + 1)
      rw [h] at this
      simp at this
    rw [List.cons_append, heldFrom, List.getLast?_cons_of_ne_nil hne, ih]
    simp; omega

theorem heldFrom_filter (h : Heap) (c : Nat) : ∀ (items : List (Nat × Bytes × Bytes)) (k : Nat),
    (∀ i x, items[i]? = some x → x.1 = c → h[k + i]? = some (some x.2.2)) →
    List.Forall₂ (fun (l : Held) (d : Bytes) => h[l.ptr]? = some (some d))
      ((heldFrom k items).filter (fun l => l.channel = c)) ((items.filter (fun x => x.1 = c)).map (·.2.2)) := by
  intro items
  induction items with
  | nil => intro k _; simp [heldFrom]
  | cons x xs ih =>
    intro k hk
    have ih' := ih (k + 1) (fun i y hy hc => by
      have := hk (i + 1) y (by simpa using hy) hc
      rwa [show k + 1 + i = k + (i + 1) by omega])
    rw [heldFrom, List.filter_cons, List.filter_cons]
    by_cases hc : x.1 = c
    · rw [if_pos (by simpa using hc), if_pos (by simpa using hc), List.map_cons]
      exact .cons (by simpa using hk 0 x (by simp) hc) ih'
    · rw [if_neg (by simpa using hc), if_neg (by simpa using hc)]
      exact ih'

theorem heldFrom_filter_last (items : List (Nat × Bytes × Bytes)) (last : Nat × Bytes × Bytes) (c : Nat)
    (hc : c ≠ last.1) : (heldFrom 0 (items ++ [last])).filter (fun l => l.channel = c)
      = (heldFrom 0 items).filter (fun l => l.channel = c) := by
  have : ∀ (l : List (Nat × Bytes × Bytes)) k, (heldFrom k (l ++ [last])).filter (fun l => l.channel = c)
      = (heldFrom k l).filter (fun l => l.channel = c) := by
    intro l
    induction l with
    | nil => intro k; simp [heldFrom, Ne.symm hc]
    | cons y ys ih => intro k; rw [List.cons_append, heldFrom, heldFrom, List.filter_cons, List.filter_cons, ih]
  exact this items 0

/-- What reading leaves: all the blocks but the last, which has been deleted. -/
theorem readImage_ok (selected : Nat → Bool) (nlines : Nat) (items : List (Nat × Bytes × Bytes))
    (last : Nat × Bytes × Bytes) (rest : Bytes)
    (ho : (items ++ [last]).map (·.1) = imageOrder selected nlines)
    (hb : ∀ x ∈ items ++ [last], LineBytes x.2.1 x.2.2) :
    readImage selected nlines ((items ++ [last]).flatMap (·.2.1) ++ rest)
      = .ok (items.map (fun x => some x.2.2) ++ [none], heldFrom 0 (items ++ [last])) := by
  unfold readImage
  rw [lineOrder_eq, ← ho, readLines_ok _ _ _ _ hb, Outcome.ok_bind]
  simp only [List.nil_append, List.length_nil]
  rw [heldFrom_getLast]
  simp only
  unfold free
  rw [Nat.zero_add, List.map_append, List.getElem?_append_right (by simp), List.length_map, Nat.sub_self]
  simp only [List.map_cons, List.map_nil, List.getElem?_cons_zero, Outcome.ok_bind, Outcome.pure_eq]
  rw [List.set_append_right _ _ (by simp), List.length_map, Nat.sub_self]
  rfl

theorem dataLoop_ok (h : Heap) (px : Nat) {ls : List Held} {rows : List (List Nat)}
    (hf : List.Forall₂ (fun (l : Held) (row : List Nat) =>
      ∃ d, h[l.ptr]? = some (some d) ∧ unpack d = .ok row ∧ row.length = px) ls rows) :
    ∀ (k : Nat) (buf : List (Option Nat)), (k + ls.length) * px ≤ buf.length →
    dataLoop h px k ls buf
      = .ok (buf.take (k * px) ++ rows.flatten.map some ++ buf.drop ((k + ls.length) * px)) := by
  induction hf with
  | nil => intro k buf _; simp [dataLoop]
  | @cons l row ls rows hl _ ih =>
    intro k buf hle
    obtain ⟨d, h1, h2, h3⟩ := hl
    rw [List.length_cons] at hle ⊢
    have hle' : k * px + px ≤ buf.length := by
      refine Nat.le_trans ?_ hle
      rw [show k * px + px = (k + 1) * px by rw [Nat.add_mul]; omega]
      exact Nat.mul_le_mul_right _ (by omega)
    have e : storeAt buf (k * px) row
        = .ok (buf.take (k * px) ++ row.map some ++ buf.drop (k * px + px)) := by
      unfold storeAt; rw [if_pos (by omega), h3]
    rw [dataLoop, h1]
    simp only
    rw [h2, Outcome.ok_bind, e, Outcome.ok_bind, ih]
    · have hm : (k + 1) * px = k * px + px := by rw [Nat.add_mul]; omega
      have hl1 : (buf.take (k * px) ++ row.map some).length = (k + 1) * px := by
        simp only [List.length_append, List.length_take, List.length_map]; omega
      rw [← hl1, List.take_left' rfl]
      have hd : (k + (ls.length + 1)) * px = (k + 1) * px + ls.length * px := by
        rw [← Nat.add_mul]; congr 1; omega
      have hd2 : (k + 1 + ls.length) * px = (buf.take (k * px) ++ row.map some).length + ls.length * px := by
        rw [hl1, ← Nat.add_mul]
      rw [hd2, List.drop_append, hd, List.drop_eq_nil_of_le (by omega), List.nil_append, Nat.add_sub_cancel_left,
        List.drop_drop, hm, List.flatten_cons, List.map_append]
      simp only [List.append_assoc]
    · simp only [List.length_append, List.length_take, List.length_map, List.length_drop]
      have : (k + 1 + ls.length) * px = (k + (ls.length + 1)) * px := by congr 1; omega
      omega

theorem unpack_ok_or_ub (d : Bytes) : (∃ ss, unpack d = .ok ss) ∨ unpack d = .ub := by
  fun_induction unpack d with
  | case1 => exact .inl ⟨_, rfl⟩
  | case2 a b c d e rest ih =>
    rcases ih with ⟨ss, h⟩ | h
    · rw [h]; exact .inl ⟨_, rfl⟩
    · rw [h]; exact .inr rfl
  | case3 => exact .inr rfl

theorem dataLoop_dead (h : Heap) (px : Nat) (ls : List Held) : ∀ (k : Nat) (buf : List (Option Nat)),
    (∃ l ∈ ls, h[l.ptr]? = some none) → dataLoop h px k ls buf = .ub := by
  induction ls with
  | nil => intro k buf hd; simp at hd
  | cons l ls ih =>
    intro k buf hd
    rw [dataLoop]
    split
    · rename_i d hd'
      obtain ⟨l', hl', hn⟩ := hd
      have hm : l' ∈ ls := by
        rcases List.mem_cons.1 hl' with rfl | hm
        · rw [hd'] at hn; cases hn
        · exact hm
      rcases unpack_ok_or_ub d with ⟨ss, hs⟩ | hs
      · rw [hs, Outcome.ok_bind]
        unfold storeAt
        split
        · rw [Outcome.ok_bind]; exact ih _ _ ⟨l', hm, hn⟩
        · rfl
      · rw [hs]; rfl
    · rfl

/-- The data of a channel of a native image is the samples of its lines, line after line: for every file
whose lines are in the documented order and all have the number of columns announced, and every selected
channel but the one the last line of the file belongs to. -/
theorem C59_channel_data_partial (selected : Nat → Bool) (nlines : Nat) (items : List (Nat × Bytes × Bytes))
    (last : Nat × Bytes × Bytes) (rest : Bytes) (c columns lines : Nat)
    (ho : (items ++ [last]).map (·.1) = imageOrder selected nlines)
    (hb : ∀ x ∈ items ++ [last], LineBytes x.2.1 x.2.2)
    (hc : c ≠ last.1)
    (hcol : ∀ x ∈ items, x.1 = c → x.2.2.length * 8 = columns * 10 ∧ x.2.2.length % 5 = 0)
    (hlines : lines = (imageOrder selected nlines).count c) :
    ∃ h held rows, readImage selected nlines ((items ++ [last]).flatMap (·.2.1) ++ rest) = .ok (h, held) ∧
      channelData h held c lines columns = .ok (rows.flatten.map some) ∧
      List.Forall₂ (fun row (d : Bytes) => (∀ s ∈ row, s < 2 ^ 10) ∧ bitsOfSamples row = bitsOfBytes d) rows
        ((items.filter (fun x => x.1 = c)).map (·.2.2)) ∧
      rows.length = lines := by
  have hfilt := heldFrom_filter_last items last c hc
  have hF := heldFrom_filter (items.map (fun x => some x.2.2) ++ [none]) c items 0 (fun i x hx _ => by
    rw [Nat.zero_add, List.getElem?_append_left (by
      have := (List.getElem?_eq_some_iff.1 hx).1
      simpa using this)]
    simp [hx])
  -- rows for the data of the channel
  have hrows : ∀ (ds : List Bytes), (∀ d ∈ ds, d.length * 8 = columns * 10 ∧ d.length % 5 = 0) →
      ∃ rows : List (List Nat), List.Forall₂ (fun row (d : Bytes) => unpack d = .ok row ∧ row.length = columns ∧
        (∀ s ∈ row, s < 2 ^ 10) ∧ bitsOfSamples row = bitsOfBytes d) rows ds := by
    intro ds
    induction ds with
    | nil => intro _; exact ⟨[], .nil⟩
    | cons d ds ih =>
      intro hd
      obtain ⟨rows, hr⟩ := ih (fun x hx => hd x (by simp [hx]))
      obtain ⟨h8, h5⟩ := hd d (by simp)
      obtain ⟨ss, h1, h2, h3, h4⟩ := C30_unpack_partial d h5
      have hu : unpack d = .ok ss := by
        unfold toSample at h1
        obtain ⟨a, ha, hb⟩ := Outcome.of_bind_ok h1
        split at hb
        · simp only [Outcome.pure_eq, Outcome.ok.injEq, Prod.mk.injEq] at hb
          rw [ha, hb.1]
        · cases hb
      exact ⟨ss :: rows, .cons ⟨hu, by omega, h3, h4⟩ hr⟩
  obtain ⟨rows, hr⟩ := hrows ((items.filter (fun x => x.1 = c)).map (·.2.2)) (by
    intro d hd
    obtain ⟨x, hx, rfl⟩ := List.mem_map.1 hd
    obtain ⟨hx1, hx2⟩ := List.mem_filter.1 hx
    exact hcol x hx1 (by simpa using hx2))
  have hlen : rows.length = lines := by
    rw [hr.length_eq, List.length_map, hlines, ← ho, List.map_append, List.count_append]
    simp only [List.map_cons, List.map_nil, List.count_cons, List.count_nil, beq_iff_eq, if_neg (Ne.symm hc)]
    rw [← List.countP_eq_length_filter, List.count, List.countP_map]
    simp only [Nat.add_zero]
    congr 1
  refine ⟨_, _, rows, readImage_ok selected nlines items last rest ho hb, ?_, ?_, hlen⟩
  · unfold channelData
    rw [hfilt]
    have hcomp : List.Forall₂ (fun (l : Held) (row : List Nat) =>
        ∃ d, (items.map (fun x => some x.2.2) ++ [none] : Heap)[l.ptr]? = some (some d) ∧ unpack d = .ok row ∧
          row.length = columns) ((heldFrom 0 items).filter (fun l => l.channel = c)) rows := by
      clear hfilt hlen
      generalize (heldFrom 0 items).filter (fun l => l.channel = c) = ls at hF ⊢
      generalize (items.filter (fun x => x.1 = c)).map (·.2.2) = ds at hF hr
      induction hr generalizing ls with
      | nil => cases hF; exact .nil
      | cons h1 _ ih =>
        cases hF with
        | cons h2 h3 => exact .cons ⟨_, h2, h1.1, h1.2.1⟩ (ih _ h3)
    have hll := hcomp.length_eq
    rw [dataLoop_ok _ _ hcomp 0 _ (by rw [List.length_replicate, Nat.zero_add, hll, hlen]; exact Nat.le_refl _)]
    rw [Nat.zero_mul, List.take_zero, List.nil_append, Nat.zero_add, hll, hlen,
      List.drop_eq_nil_of_le (by rw [List.length_replicate]; exact Nat.le_refl _), List.append_nil]
  · exact hr.imp (fun _ _ h => h.2.2)

theorem dumpLoop_ok (h : Heap) (px : Nat) {ls : List Held} {rows : List (List Nat)}
    (hf : List.Forall₂ (fun (l : Held) (row : List Nat) =>
      ∃ d, h[l.ptr]? = some (some d) ∧ toSample d none = .ok (row, px)) ls rows) :
    ∀ room, room = none ∨ room = some px → dumpLoop h room ls = .ok rows.flatten := by
  induction hf with
  | nil => intro _ _; rfl
  | @cons l row ls rows hl _ ih =>
    intro room hr
    obtain ⟨d, h1, h2⟩ := hl
    have h3 : toSample d room = .ok (row, px) := by
      rcases hr with rfl | rfl
      · exact h2
      · unfold toSample at h2 ⊢
        obtain ⟨a, ha, hb⟩ := Outcome.of_bind_ok h2
        rw [ha, Outcome.ok_bind]
        split at hb
        · rename_i hle
          simp only [Outcome.pure_eq, Outcome.ok.injEq, Prod.mk.injEq] at hb
          obtain ⟨rfl, rfl⟩ := hb
          rw [if_pos (by simpa using hle)]
          rfl
        · cases hb
    rw [dumpLoop, h1]
    simp only
    rw [h3, Outcome.ok_bind]
    simp only
    rw [ih (some (room.getD px)) (by rcases hr with rfl | rfl <;> simp), Outcome.ok_bind]
    rfl

/-- Dumping a channel writes the samples of its lines, line after line: under the same conditions. -/
theorem C59_dump_partial (selected : Nat → Bool) (nlines : Nat) (items : List (Nat × Bytes × Bytes))
    (last : Nat × Bytes × Bytes) (rest : Bytes) (c columns : Nat)
    (ho : (items ++ [last]).map (·.1) = imageOrder selected nlines)
    (hb : ∀ x ∈ items ++ [last], LineBytes x.2.1 x.2.2)
    (hc : c ≠ last.1)
    (hcol : ∀ x ∈ items, x.1 = c → x.2.2.length * 8 = columns * 10 ∧ x.2.2.length % 5 = 0) :
    ∃ h held rows, readImage selected nlines ((items ++ [last]).flatMap (·.2.1) ++ rest) = .ok (h, held) ∧
      dumpSamples h held c = .ok rows.flatten ∧
      List.Forall₂ (fun row (d : Bytes) => (∀ s ∈ row, s < 2 ^ 10) ∧ bitsOfSamples row = bitsOfBytes d) rows
        ((items.filter (fun x => x.1 = c)).map (·.2.2)) ∧
      ∀ row ∈ rows, row.length = columns := by
  have hF := heldFrom_filter (items.map (fun x => some x.2.2) ++ [none]) c items 0 (fun i x hx _ => by
    rw [Nat.zero_add, List.getElem?_append_left (by
      have := (List.getElem?_eq_some_iff.1 hx).1
      simpa using this)]
    simp [hx])
  have hrows : ∀ (ds : List Bytes), (∀ d ∈ ds, d.length * 8 = columns * 10 ∧ d.length % 5 = 0) →
      ∃ rows : List (List Nat), List.Forall₂ (fun row (d : Bytes) => toSample d none = .ok (row, columns) ∧
        row.length = columns ∧ (∀ s ∈ row, s < 2 ^ 10) ∧ bitsOfSamples row = bitsOfBytes d) rows ds := by
    intro ds
    induction ds with
    | nil => intro _; exact ⟨[], .nil⟩
    | cons d ds ih =>
      intro hd
      obtain ⟨rows, hr⟩ := ih (fun x hx => hd x (by simp [hx]))
      obtain ⟨h8, h5⟩ := hd d (by simp)
      obtain ⟨ss, h1, h2, h3, h4⟩ := C30_unpack_partial d h5
      have hl : ss.length = columns := by omega
      exact ⟨ss :: rows, .cons ⟨by rw [h1, hl], hl, h3, h4⟩ hr⟩
  obtain ⟨rows, hr⟩ := hrows ((items.filter (fun x => x.1 = c)).map (·.2.2)) (by
    intro d hd
    obtain ⟨x, hx, rfl⟩ := List.mem_map.1 hd
    obtain ⟨hx1, hx2⟩ := List.mem_filter.1 hx
    exact hcol x hx1 (by simpa using hx2))
  refine ⟨_, _, rows, readImage_ok selected nlines items last rest ho hb, ?_,
    hr.imp (fun _ _ h => h.2.2), ?_⟩
  · unfold dumpSamples
    rw [heldFrom_filter_last items last c hc]
    refine dumpLoop_ok _ columns ?_ none (.inl rfl)
    generalize (heldFrom 0 items).filter (fun l => l.channel = c) = ls at hF ⊢
    generalize (items.filter (fun x => x.1 = c)).map (·.2.2) = ds at hF hr
    induction hr generalizing ls with
    | nil => cases hF; exact .nil
    | cons h1 _ ih =>
      cases hF with
      | cons h2 h3 => exact .cons ⟨_, h2, h1.1⟩ (ih _ h3)
  · intro row hrow
    clear hF
    generalize (items.filter (fun x => x.1 = c)).map (·.2.2) = ds at hr
    induction hr with
    | nil => simp at hrow
    | cons h1 _ ih =>
      rcases List.mem_cons.1 hrow with rfl | h
      · exact h1.2.1
      · exact ih h

theorem heldFrom_last_mem (items : List (Nat × Bytes × Bytes)) (last : Nat × Bytes × Bytes) :
    (⟨last.1, items.length⟩ : Held) ∈ heldFrom 0 (items ++ [last]) := by
  have := heldFrom_getLast items last 0
  rw [Nat.zero_add] at this
  exact List.mem_of_getLast? this

/-- Whatever the file, as soon as it has a line, the data of the last line read is deleted before it can be
used: asking for the data of its channel reads memory that has been freed. -/
theorem C59_violated_last_line (selected : Nat → Bool) (nlines : Nat) (items : List (Nat × Bytes × Bytes))
    (last : Nat × Bytes × Bytes) (rest : Bytes) (lines columns : Nat)
    (ho : (items ++ [last]).map (·.1) = imageOrder selected nlines)
    (hb : ∀ x ∈ items ++ [last], LineBytes x.2.1 x.2.2) :
    ∃ h held, readImage selected nlines ((items ++ [last]).flatMap (·.2.1) ++ rest) = .ok (h, held) ∧
      channelData h held last.1 lines columns = .ub := by
  refine ⟨_, _, readImage_ok selected nlines items last rest ho hb, ?_⟩
  unfold channelData
  apply dataLoop_dead
  refine ⟨⟨last.1, items.length⟩, ?_, ?_⟩
  · rw [List.mem_filter]
    exact ⟨heldFrom_last_mem items last, by simp⟩
  · dsimp only
    rw [List.getElem?_append_right (by simp)]
    simp

theorem freeAll_dead (ls : List Held) : ∀ h : Heap, (∃ l ∈ ls, h[l.ptr]? = some none) → freeAll h ls = .ub := by
  induction ls with
  | nil => intro h hd; simp at hd
  | cons l ls ih =>
    intro h hd
    rw [freeAll]
    unfold free
    split
    · rename_i d hd'
      obtain ⟨l', hl', hn⟩ := hd
      have hne : l'.ptr ≠ l.ptr := by intro e; rw [e, hd'] at hn; cases hn
      have hm : l' ∈ ls := by
        rcases List.mem_cons.1 hl' with rfl | hm
        · exact absurd rfl hne
        · exact hm
      rw [Outcome.ok_bind]
      refine ih _ ⟨l', hm, ?_⟩
      rw [List.getElem?_set_ne (Ne.symm hne)]
      exact hn
    · rfl

/-- And closing the file, or destroying the object, deletes that memory a second time. -/
theorem C59_violated_close (selected : Nat → Bool) (nlines : Nat) (items : List (Nat × Bytes × Bytes))
    (last : Nat × Bytes × Bytes) (rest : Bytes)
    (ho : (items ++ [last]).map (·.1) = imageOrder selected nlines)
    (hb : ∀ x ∈ items ++ [last], LineBytes x.2.1 x.2.2) :
    ∃ h held, readImage selected nlines ((items ++ [last]).flatMap (·.2.1) ++ rest) = .ok (h, held) ∧
      close h held = .ub := by
  refine ⟨_, _, readImage_ok selected nlines items last rest ho hb, ?_⟩
  apply freeAll_dead
  refine ⟨⟨last.1, items.length⟩, ?_, ?_⟩
  · rw [List.mem_flatMap]
    refine ⟨last.1, ?_, ?_⟩
    · have hm : last.1 ∈ imageOrder selected nlines := by rw [← ho]; simp
      unfold imageOrder at hm
      obtain ⟨l, hl, hm⟩ := List.mem_flatten.1 hm
      rw [List.eq_of_mem_replicate hl] at hm
      rw [List.mem_range]
      rcases List.mem_append.1 hm with h | h
      · have := List.mem_range.1 (List.mem_filter.1 h).1; omega
      · split at h
        · simp only [List.mem_cons, List.not_mem_nil, or_false] at h; omega
        · simp at h
    · rw [List.mem_filter]
      exact ⟨heldFrom_last_mem items last, by simp⟩
  · dsimp only
    rw [List.getElem?_append_right (by simp)]
    simp

/-- Two channels with one line each of four samples. -/
def twoLines : List (Nat × Bytes × Bytes) :=
  let l (d : Bytes) : Bytes := List.replicate 18 0 ++ encBE 4 47 ++ List.replicate 16 0 ++ List.replicate 27 7 ++ d
  [(8, l [0xFF, 0xC0, 0x00, 0x04, 0x01], [0xFF, 0xC0, 0x00, 0x04, 0x01]), (9, l [0, 0, 0, 0, 0], [0, 0, 0, 0, 0])]

example : (∀ x ∈ twoLines, LineBytes x.2.1 x.2.2) ∧
    twoLines.map (·.1) = imageOrder (fun c => c = 8 ∨ c = 9) 1 := by
  refine ⟨?_, by decide +kernel⟩
  intro x hx
  refine ⟨x.2.1.take 38, (x.2.1.drop 38).take 27, ?_⟩
  simp only [twoLines, List.mem_cons, List.not_mem_nil, or_false] at hx
  unfold Announces
  rcases hx with rfl | rfl <;> decide +kernel

example : (readImage (fun c => c = 8 ∨ c = 9) 1 (twoLines.flatMap (·.2.1)) >>= fun r => channelData r.1 r.2 8 1 4)
    = .ok [some 1023, some 0, some 1, some 1] := by decide +kernel

end Msat.Props
