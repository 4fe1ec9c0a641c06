import Verif.Lemmas.Machine
import Verif.Spec.Layout

namespace Msat.Layout
open Spec Machine Time

/-! ### encoding and reading back one field -/

theorem Kind.encode_length (k : Kind) (v : Val) (h : k.InRange v) :
    (k.encode v).length = k.width := by
  cases k <;> cases v <;> simp_all [Kind.InRange, Kind.encode, Kind.width]

theorem cuc24_at (pre : Bytes) (v : Nat) (post : Bytes) (h : v < 2 ^ 56) :
    cuc24 (pre ++ encBE 7 v ++ post) pre.length = .ok v := by
  have e : beVal (encBE 7 v) = v := beVal_encBE_of_lt h
  simp only [encBE] at e
  simp only [cuc24, List.append_assoc, List.drop_left, encBE, List.cons_append]
  refine congrArg Outcome.ok (Eq.trans ?_ e)
  simp only [beVal, List.length]
  omega

theorem readField_at (k : Kind) (pre : Bytes) (v : Val) (post : Bytes) (h : k.InRange v) :
    readField k (pre ++ k.encode v ++ post) pre.length = .ok v := by
  cases k with
  | mem n cap =>
    cases v with
    | bytes b =>
      obtain ⟨h1, h2⟩ := h
      subst h1
      simp [readField, h2, Kind.encode, slice]
    | _ => exact absurd h (by simp [Kind.InRange])
  | t6 =>
    cases v with
    | time d m u n =>
      obtain ⟨h1, h2, h3, h4⟩ := h
      subst h3 h4
      have e := cdsShort_at pre d m post h1 h2
      simp only [readField, Kind.encode, ← List.append_assoc] at e ⊢
      rw [e]; rfl
    | _ => exact absurd h (by simp [Kind.InRange])
  | t8 =>
    cases v with
    | time d m u n =>
      obtain ⟨h1, h2, h3, h4⟩ := h
      subst h4
      have e := cdsShort_at pre d m (encBE 2 u ++ post) h1 h2
      have e2 := ui2_at (pre ++ encBE 2 d ++ encBE 4 m) u post h3
      simp only [List.length_append, encBE_length, Nat.add_assoc, Nat.reduceAdd] at e2
      simp only [readField, Kind.encode, cds, List.append_assoc] at e e2 ⊢
      rw [e, Outcome.ok_bind, e2]; rfl
    | _ => exact absurd h (by simp [Kind.InRange])
  | t10 =>
    cases v with
    | time d m u n =>
      obtain ⟨h1, h2, h3, h4⟩ := h
      have e := cdsShort_at pre d m (encBE 2 u ++ (encBE 2 n ++ post)) h1 h2
      have e2 := ui2_at (pre ++ encBE 2 d ++ encBE 4 m) u (encBE 2 n ++ post) h3
      have e3 := ui2_at (pre ++ encBE 2 d ++ encBE 4 m ++ encBE 2 u) n post h4
      simp only [List.length_append, encBE_length, Nat.add_assoc, Nat.reduceAdd] at e2 e3
      simp only [readField, Kind.encode, cdsExpanded, List.append_assoc] at e e2 e3 ⊢
      rw [e, Outcome.ok_bind, e2, Outcome.ok_bind, e3]; rfl
    | _ => exact absurd h (by simp [Kind.InRange])
  | flag =>
    cases v with
    | nat v =>
      simp only [Kind.InRange] at h
      simp only [readField, Kind.encode]
      rw [ui1_at pre v post (by omega), Outcome.ok_bind]
      have : v = 0 ∨ v = 1 := by omega
      rcases this with rfl | rfl <;> rfl
    | _ => exact absurd h (by simp [Kind.InRange])
  | i4 =>
    cases v with
    | int v =>
      simp only [readField, Kind.encode]
      rw [i4_at pre v post h.1 h.2]; rfl
    | _ => exact absurd h (by simp [Kind.InRange])
  | u1 =>
    cases v with
    | nat v => simp only [readField, Kind.encode]; rw [ui1_at pre v post h]; rfl
    | _ => exact absurd h (by simp [Kind.InRange])
  | u2 =>
    cases v with
    | nat v => simp only [readField, Kind.encode]; rw [ui2_at pre v post h]; rfl
    | _ => exact absurd h (by simp [Kind.InRange])
  | u4 =>
    cases v with
    | nat v => simp only [readField, Kind.encode]; rw [ui4_at pre v post h]; rfl
    | _ => exact absurd h (by simp [Kind.InRange])
  | r4 =>
    cases v with
    | nat v => simp only [readField, Kind.encode]; rw [ui4_at pre v post h]; rfl
    | _ => exact absurd h (by simp [Kind.InRange])
  | r8 =>
    cases v with
    | nat v => simp only [readField, Kind.encode]; rw [ui8_at pre v post h]; rfl
    | _ => exact absurd h (by simp [Kind.InRange])
  | cuc =>
    cases v with
    | nat v => simp only [readField, Kind.encode]; rw [cuc24_at pre v post h]; rfl
    | _ => exact absurd h (by simp [Kind.InRange])

theorem spare_length (n : Nat) (v : Val) : (spare n v).length = n := by
  cases v <;> simp [spare]

/-! ### the fields of a layout at another offset -/

/-- The same read `d` bytes further. -/
def Read.shift (d : Nat) (r : Read) : Read := { r with off := r.off + d }

namespace Lay

theorem reads_shift (l : Lay) : ∀ b d : Nat, l.reads (b + d) = (l.reads b).map (Read.shift d) := by
  induction l with
  | prim k => intro b d; rfl
  | arr n l ih =>
    intro b d
    simp only [reads, List.map_flatMap]
    congr 1; funext j
    rw [show b + d + j * l.size = (b + j * l.size) + d by omega, ih]
    simp only [List.map_map]; rfl
  | field nm l rest ih1 ih2 =>
    intro b d
    simp only [reads, List.map_append, List.map_map]
    rw [ih1, show b + d + l.size = (b + l.size) + d by omega, ih2]
    simp only [List.map_map]; rfl
  | skip n rest ih =>
    intro b d
    simp only [reads]
    rw [show b + d + n = (b + n) + d by omega, ih]
  | done => intro b d; rfl

theorem reads_zero (l : Lay) (b : Nat) : l.reads b = (l.reads 0).map (Read.shift b) := by
  have := reads_shift l 0 b
  rwa [Nat.zero_add] at this

theorem InRange.at {l : Lay} {ρ : Path → Val} (h : l.InRange ρ) (b : Nat) :
    ∀ r ∈ l.reads b, r.kind.InRange (ρ r.path) := by
  intro r hr
  rw [reads_zero] at hr
  obtain ⟨r', h', rfl⟩ := List.mem_map.1 hr
  exact h r' h'

theorem inRange_of_at {l : Lay} {ρ : Path → Val} (b : Nat)
    (h : ∀ r ∈ l.reads b, r.kind.InRange (ρ r.path)) : l.InRange ρ := by
  intro r hr
  have := h (r.shift b) (by rw [reads_zero]; exact List.mem_map_of_mem hr)
  exact this

theorem InRange.arr {n : Nat} {l : Lay} {ρ : Path → Val} (h : (Lay.arr n l).InRange ρ) {j : Nat}
    (hj : j < n) : l.InRange (fun p => ρ (.i j :: p)) := by
  refine inRange_of_at (0 + j * l.size) fun r hr => ?_
  exact h (r.under [.i j]) (by
    simp only [reads, List.mem_flatMap, List.mem_range]
    exact ⟨j, hj, List.mem_map_of_mem hr⟩)

theorem InRange.fst {nm : String} {l rest : Lay} {ρ : Path → Val}
    (h : (Lay.field nm l rest).InRange ρ) : l.InRange (fun p => ρ (.f nm :: p)) := by
  intro r hr
  exact h (r.under [.f nm]) (by
    simp only [reads, List.mem_append]; exact Or.inl (List.mem_map_of_mem hr))

theorem InRange.snd {nm : String} {l rest : Lay} {ρ : Path → Val}
    (h : (Lay.field nm l rest).InRange ρ) : rest.InRange ρ := by
  refine inRange_of_at (0 + l.size) fun r hr => ?_
  exact h r (by simp only [reads, List.mem_append]; exact Or.inr hr)

theorem InRange.skip {n : Nat} {rest : Lay} {ρ : Path → Val}
    (h : (Lay.skip n rest).InRange ρ) : rest.InRange ρ := by
  refine inRange_of_at (0 + n) fun r hr => ?_
  exact h r (by simpa only [reads] using hr)

theorem encode_length (l : Lay) : ∀ ρ : Path → Val, l.InRange ρ → (l.encode ρ).length = l.size := by
  induction l with
  | prim k => intro ρ h; exact Kind.encode_length k _ (h ⟨[], 0, k⟩ (by simp [reads]))
  | arr n l ih =>
    intro ρ h
    simp only [encode, size]
    rw [List.length_flatMap]
    have : List.map (fun a => (l.encode fun p => ρ (Key.i a :: p)).length) (List.range n)
        = List.replicate n l.size := by
      refine List.eq_replicate_iff.2 ⟨by simp, ?_⟩
      intro b hb
      obtain ⟨j, hj, rfl⟩ := List.mem_map.1 hb
      exact ih _ (h.arr (List.mem_range.1 hj))
    rw [this]
    simp
  | field nm l rest ih1 ih2 =>
    intro ρ h
    simp only [encode, size, List.length_append, ih1 _ h.fst, ih2 _ h.snd]
  | skip n rest ih =>
    intro ρ h
    simp only [encode, size, List.length_append, spare_length, ih _ h.skip]
  | done => intro ρ h; rfl

theorem range_split {n j : Nat} (h : j < n) :
    ∃ t, List.range n = List.range j ++ j :: t := by
  refine ⟨(List.range (n - j - 1)).map (j + 1 + ·), ?_⟩
  have : n = j + (1 + (n - j - 1)) := by omega
  conv => lhs; rw [this, List.range_add, List.range_add]
  simp [List.map_map, Function.comp_def, Nat.add_assoc]

/-- Every member of an encoded record is read back. -/
theorem readField_encode (l : Lay) : ∀ (ρ : Path → Val) (pre post : Bytes), l.InRange ρ →
    ∀ r ∈ l.reads pre.length,
      readField r.kind (pre ++ l.encode ρ ++ post) r.off = .ok (ρ r.path) := by
  induction l with
  | prim k =>
    intro ρ pre post h r hr
    simp only [reads, List.mem_singleton] at hr
    subst hr
    exact readField_at k pre _ post (h ⟨[], 0, k⟩ (by simp [reads]))
  | arr n l ih =>
    intro ρ pre post h r hr
    simp only [reads, List.mem_flatMap, List.mem_range] at hr
    obtain ⟨j, hj, hr⟩ := hr
    obtain ⟨r', hr', rfl⟩ := List.mem_map.1 hr
    obtain ⟨t, ht⟩ := range_split hj
    simp only [encode]
    rw [ht, List.flatMap_append, List.flatMap_cons]
    have hlen : ((List.range j).flatMap fun a => l.encode fun p => ρ (.i a :: p)).length
        = j * l.size := by
      refine encode_length (.arr j l) ρ ?_
      intro r hr
      refine h r ?_
      simp only [reads, List.mem_flatMap, List.mem_range] at hr ⊢
      obtain ⟨a, ha, hr⟩ := hr
      exact ⟨a, by omega, hr⟩
    have key := ih (fun p => ρ (.i j :: p))
      (pre ++ (List.range j).flatMap fun a => l.encode fun p => ρ (.i a :: p))
      ((t.flatMap fun a => l.encode fun p => ρ (.i a :: p)) ++ post) (h.arr hj) r'
      (by rw [List.length_append, hlen]; exact hr')
    simp only [List.append_assoc] at key ⊢
    exact key
  | field nm l rest ih1 ih2 =>
    intro ρ pre post h r hr
    simp only [reads, List.mem_append] at hr
    simp only [encode]
    rcases hr with hr | hr
    · obtain ⟨r', hr', rfl⟩ := List.mem_map.1 hr
      have key := ih1 (fun p => ρ (.f nm :: p)) pre (rest.encode ρ ++ post) h.fst r' hr'
      simp only [List.append_assoc] at key ⊢
      exact key
    · have key := ih2 ρ (pre ++ l.encode fun p => ρ (.f nm :: p)) post h.snd r
        (by rw [List.length_append, encode_length _ _ h.fst]; exact hr)
      simp only [List.append_assoc] at key ⊢
      exact key
  | skip n rest ih =>
    intro ρ pre post h r hr
    simp only [reads] at hr
    simp only [encode]
    have key := ih ρ (pre ++ spare n (ρ [.f "spare"])) post h.skip r
        (by rw [List.length_append, spare_length]; exact hr)
    simp only [List.append_assoc] at key ⊢
    exact key
  | done => intro ρ pre post h r hr; simp [reads] at hr

/-! ### tiling -/

theorem reads_bounds (l : Lay) : ∀ b, ∀ r ∈ l.reads b, b ≤ r.off ∧ r.off + r.kind.width ≤ b + l.size := by
  induction l with
  | prim k => intro b r hr; simp only [reads, List.mem_singleton] at hr; subst hr; simp [size]
  | arr n l ih =>
    intro b r hr
    simp only [reads, List.mem_flatMap, List.mem_range] at hr
    obtain ⟨j, hj, hr⟩ := hr
    obtain ⟨r', hr', rfl⟩ := List.mem_map.1 hr
    have := ih _ _ hr'
    simp only [Read.under, size]
    have hmul : (j + 1) * l.size ≤ n * l.size := Nat.mul_le_mul_right _ hj
    rw [Nat.succ_mul] at hmul
    omega
  | field nm l rest ih1 ih2 =>
    intro b r hr
    simp only [reads, List.mem_append] at hr
    simp only [size]
    rcases hr with hr | hr
    · obtain ⟨r', hr', rfl⟩ := List.mem_map.1 hr
      have := ih1 _ _ hr'
      simp only [Read.under]; omega
    · have := ih2 _ _ hr; omega
  | skip n rest ih =>
    intro b r hr
    simp only [reads] at hr
    have := ih _ _ hr; simp only [size]; omega
  | done => intro b r hr; simp [reads] at hr

theorem reads_pairwise (l : Lay) : ∀ b,
    (l.reads b).Pairwise fun r s => r.off + r.kind.width ≤ s.off := by
  induction l with
  | prim k => intro b; simp [reads]
  | arr n l ih =>
    intro b
    induction n with
    | zero => simp [reads]
    | succ n ihn =>
      simp only [reads] at ihn ⊢
      rw [List.range_succ, List.flatMap_append, List.pairwise_append]
      refine ⟨ihn, ?_, ?_⟩
      · simp only [List.flatMap_cons, List.flatMap_nil, List.append_nil, List.pairwise_map]
        exact ih _
      · intro r hr s hs
        have h1 := reads_bounds (.arr n l) b r (by simpa only [reads] using hr)
        simp only [List.flatMap_cons, List.flatMap_nil, List.append_nil] at hs
        obtain ⟨s', hs', rfl⟩ := List.mem_map.1 hs
        have h2 := reads_bounds l _ _ hs'
        simp only [size] at h1
        simp only [Read.under]; omega
  | field nm l rest ih1 ih2 =>
    intro b
    simp only [reads, List.pairwise_append, List.pairwise_map]
    refine ⟨ih1 b, ih2 _, ?_⟩
    intro r hr s hs
    obtain ⟨r', hr', rfl⟩ := List.mem_map.1 hr
    have h1 := reads_bounds _ _ _ hr'
    have h2 := reads_bounds _ _ _ hs
    simp only [Read.under]; omega
  | skip n rest ih => intro b; exact ih _
  | done => intro b; simp [reads]

theorem reads_total (l : Lay) : ∀ b,
    ((l.reads b).map fun r => r.kind.width).sum + l.spareBytes = l.size := by
  induction l with
  | prim k => intro b; simp [reads, spareBytes, size]
  | arr n l ih =>
    intro b
    induction n with
    | zero => simp [reads, spareBytes, size]
    | succ n ihn =>
      simp only [reads, spareBytes, size] at ihn ⊢
      rw [List.range_succ, List.flatMap_append, List.map_append, List.sum_append]
      simp only [List.flatMap_cons, List.flatMap_nil, List.append_nil, List.map_map]
      have h := ih (b + n * l.size)
      have e : ((fun r : Read => r.kind.width) ∘ Read.under [Key.i n]) = fun r => r.kind.width := rfl
      rw [e, Nat.succ_mul, Nat.succ_mul]
      omega
  | field nm l rest ih1 ih2 =>
    intro b
    simp only [reads, spareBytes, size, List.map_append, List.sum_append, List.map_map]
    have e : ((fun r : Read => r.kind.width) ∘ Read.under [Key.f nm]) = fun r => r.kind.width := rfl
    rw [e]
    have h1 := ih1 b
    have h2 := ih2 (b + l.size)
    omega
  | skip n rest ih =>
    intro b
    simp only [reads, spareBytes, size]
    have := ih (b + n); omega
  | done => intro b; simp [reads, spareBytes, size]

end Lay

end Msat.Layout
