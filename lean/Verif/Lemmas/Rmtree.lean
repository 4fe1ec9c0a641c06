import Verif.Spec.Rmtree
import Verif.Lemmas.Sys

/-
Helper lemmas for C40.
-/
namespace Msat.RmtreeSpec
open Sys Rmtree

/-- A hierarchy with given ranks. -/
structure Ranked (fs : FS) (rank : Ino → Nat) : Prop where
  names : ∀ d es, fs d = .dir es → (es.map (·.1)).Nodup
  parent : ∀ d d' name name' c, fs.isDir c = true → HasEntry fs d name c → HasEntry fs d' name' c → d = d' ∧ name = name'
  lt : ∀ d name c, HasEntry fs d name c → fs.isDir c = true → rank c < rank d

/-- `fs1` has only entries and directories of `fs0`. -/
structure Sub (fs1 fs0 : FS) : Prop where
  entry : ∀ y m i, HasEntry fs1 y m i → HasEntry fs0 y m i
  dir : ∀ i, fs1.isDir i = true → fs0.isDir i = true
  link : ∀ i t, fs1 i = .link t → fs0 i = .link t
  names : ∀ d es, fs1 d = .dir es → (es.map (·.1)).Nodup

theorem isDir_iff {fs : FS} {i : Ino} : fs.isDir i = true ↔ ∃ es, fs i = .dir es := by
  unfold FS.isDir
  cases fs i <;> simp

theorem Ranked.mono {fs1 fs0 : FS} {rank} (h : Ranked fs0 rank) (s : Sub fs1 fs0) : Ranked fs1 rank :=
  ⟨s.names, fun _ _ _ _ c hc h1 h2 => h.parent _ _ _ _ c (s.dir c hc) (s.entry _ _ _ h1) (s.entry _ _ _ h2),
    fun _ _ c h1 hc => h.lt _ _ c (s.entry _ _ _ h1) (s.dir c hc)⟩

theorem Below.mono {fs1 fs0 : FS} (s : Sub fs1 fs0) {d x : Ino} (h : Below fs1 d x) : Below fs0 d x := by
  induction h with
  | self => exact .self
  | sub _ he hd ih => exact .sub ih (s.entry _ _ _ he) (s.dir _ hd)

theorem Below.trans {fs : FS} {a b c : Ino} (h : Below fs a b) (h' : Below fs b c) : Below fs a c := by
  induction h' with
  | self => exact h
  | sub _ he hd ih => exact .sub ih he hd

theorem Below.rank {fs : FS} {rank} (h : Ranked fs rank) {d x : Ino} (hb : Below fs d x) : rank x ≤ rank d := by
  induction hb with
  | self => exact Nat.le_refl _
  | sub _ he hd ih => have := h.lt _ _ _ he hd; omega

theorem Below.comparable {fs : FS} {rank} (h : Ranked fs rank) {a b x : Ino} (ha : Below fs a x) :
    Below fs b x → Below fs a b ∨ Below fs b a := by
  induction ha with
  | self => exact Or.inr
  | sub ha he hd ih =>
    intro hb
    cases hb with
    | self => exact Or.inl (.sub ha he hd)
    | sub hb' he' hd' =>
      obtain ⟨rfl, _⟩ := h.parent _ _ _ _ _ hd he he'
      exact ih hb'

theorem Below.strict {fs : FS} {rank} (h : Ranked fs rank) {d n1 n2 c1 c2 : _} (h1 : HasEntry fs d n1 c1) (d1 : fs.isDir c1 = true)
    (h2 : HasEntry fs d n2 c2) (d2 : fs.isDir c2 = true) (hb : Below fs c1 c2) : c1 = c2 := by
  cases hb with
  | self => rfl
  | sub hy he _ =>
    obtain ⟨rfl, _⟩ := h.parent _ _ _ _ _ d2 h2 he
    have := hy.rank h
    have := h.lt _ _ _ h1 d1
    omega

theorem Below.disjoint {fs : FS} {rank} (h : Ranked fs rank) {d n1 n2 c1 c2 x : _} (h1 : HasEntry fs d n1 c1)
    (d1 : fs.isDir c1 = true) (h2 : HasEntry fs d n2 c2) (d2 : fs.isDir c2 = true) (b1 : Below fs c1 x)
    (b2 : Below fs c2 x) : c1 = c2 := by
  rcases b1.comparable h b2 with q | q
  · exact Below.strict h h1 d1 h2 d2 q
  · exact (Below.strict h h2 d2 h1 d1 q).symm

theorem Below.congr {fs0 fs1 : FS} {c : Ino} (hc : ∀ y, Below fs0 c y → fs1 y = fs0 y) {x : Ino} (h : Below fs0 c x) :
    Below fs1 c x := by
  induction h with
  | self => exact .self
  | @sub y c' name hy he hd ih =>
    refine .sub (name := name) ih ?_ ?_
    · obtain ⟨es, h1, h2⟩ := he
      exact ⟨es, (hc _ hy).trans h1, h2⟩
    · have := hc _ (.sub hy he hd)
      unfold FS.isDir at hd ⊢
      rw [this]; exact hd

theorem Below.child {fs : FS} {d x : Ino} {es : List (Bytes × Ino)} (hd : fs d = .dir es) (h : Below fs d x) :
    x = d ∨ ∃ e ∈ es, fs.isDir e.2 = true ∧ Below fs e.2 x := by
  induction h with
  | self => exact Or.inl rfl
  | @sub y c name hy he hc ih =>
    right
    rcases ih with rfl | ⟨e, h1, h2, h3⟩
    · obtain ⟨es', h1, h2⟩ := he
      rw [hd] at h1; injection h1 with h1; subst h1
      exact ⟨(name, c), h2, hc, .self⟩
    · exact ⟨e, h1, h2, .sub h3 he hc⟩

theorem find_entry (es : List (Bytes × Ino)) (name : Bytes) (i : Ino) (hn : (es.map (·.1)).Nodup) (h : (name, i) ∈ es) :
    (es.find? fun e => e.1 = name).map (·.2) = some i := by
  induction es with
  | nil => simp at h
  | cons e es ih =>
    rw [List.map_cons, List.nodup_cons] at hn
    rcases List.mem_cons.1 h with rfl | h
    · simp
    · have : e.1 ≠ name := by
        rintro rfl
        exact hn.1 (List.mem_map_of_mem (f := (·.1)) h)
      rw [List.find?_cons_of_neg (by simpa using this)]
      exact ih hn.2 h

theorem entry_of_has {fs : FS} (hn : ∀ d es, fs d = .dir es → (es.map (·.1)).Nodup) {d : Ino} {name : Bytes} {i : Ino}
    (h : HasEntry fs d name i) : fs.entry d name = some i := by
  obtain ⟨es, h1, h2⟩ := h
  unfold FS.entry
  rw [h1]
  exact find_entry es name i (hn d es h1) h2

theorem follow_dir {fs : FS} {i : Ino} (h : fs.isDir i = true) : fs.follow i = i := by
  obtain ⟨es, h⟩ := isDir_iff.1 h
  unfold FS.follow
  rw [h]

theorem Leads.walk {fs : FS} (hn : ∀ d es, fs d = .dir es → (es.map (·.1)).Nodup) {a e : Ino} {path : List Bytes}
    (h : Leads fs a path e) : fs.walk a path = some e := by
  induction h with
  | here d => rfl
  | next he hd _ ih =>
    unfold FS.walk
    rw [entry_of_has hn he]
    show FS.walk fs (fs.follow _) _ = _
    rw [follow_dir hd]; exact ih

theorem Leads.rank {fs : FS} {rank} (h : Ranked fs rank) {a e : Ino} {path : List Bytes} (hl : Leads fs a path e) :
    rank e ≤ rank a ∧ (path ≠ [] → rank e < rank a) := by
  induction hl with
  | here d => exact ⟨Nat.le_refl _, fun q => absurd rfl q⟩
  | next he hd _ ih => have := h.lt _ _ _ he hd; exact ⟨by omega, fun _ => by omega⟩

theorem Leads.congr {fs0 fs1 : FS} {rank} (h : Ranked fs0 rank) {a e : Ino} {path : List Bytes} (hl : Leads fs0 a path e)
    (hc : ∀ x, rank e < rank x → fs1 x = fs0 x) (he : fs1.isDir e = true) : Leads fs1 a path e := by
  induction hl with
  | here d => exact .here d
  | @next d i e name path hh hd hl ih =>
    have hr := hl.rank h
    have hlt := h.lt _ _ _ hh hd
    refine .next ?_ ?_ (ih hc he)
    · obtain ⟨es, h1, h2⟩ := hh
      exact ⟨es, (hc _ (by omega)).trans h1, h2⟩
    · cases hl with
      | here => exact he
      | next h1 h2 h3 =>
        have := hr.2 (by simp)
        unfold FS.isDir at hd ⊢
        rw [hc _ this]; exact hd

theorem Leads.snoc {fs : FS} {a p d : Ino} {path : List Bytes} {name : Bytes} (hl : Leads fs a path p)
    (he : HasEntry fs p name d) (hd : fs.isDir d = true) : Leads fs a (path ++ [name]) d := by
  induction hl with
  | here => exact .next he hd (.here _)
  | next h1 h2 _ ih => exact .next h1 h2 (ih he)

end Msat.RmtreeSpec
