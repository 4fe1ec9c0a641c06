import Verif.Lemmas.Rmtree

namespace Msat.Props
open Sys Rmtree RmtreeSpec

/-- The state after the removal of `d`, which had the name `name` in `p`. -/
structure Post (fs : FS) (p : Ino) (name : Bytes) (d : Ino) (fs' : FS) : Prop where
  gone : ∀ x, Below fs d x → fs' x = .absent
  par : ∀ es, fs p = .dir es → fs' p = .dir (es.filter fun e => e.1 ≠ name)
  rest : ∀ x, ¬ Below fs d x → x ≠ p → fs' x = fs x

/-- In the middle of the loop: the entries `done` have been removed from `d`. -/
structure TreeMid (fs : FS) (d : Ino) (done todo : List (Bytes × Ino)) (fs1 : FS) : Prop where
  dir : fs1 d = .dir todo
  gone : ∀ x, (∃ e ∈ done, fs.isDir e.2 = true ∧ Below fs e.2 x) → fs1 x = .absent
  rest : ∀ x, x ≠ d → (¬ ∃ e ∈ done, fs.isDir e.2 = true ∧ Below fs e.2 x) → fs1 x = fs x

theorem filter_head {e : Bytes × Ino} {todo : List (Bytes × Ino)} (h : ((e :: todo).map (·.1)).Nodup) :
    (e :: todo).filter (fun x => x.1 ≠ e.1) = todo := by
  rw [List.filter_cons_of_neg (by simp), List.filter_eq_self]
  intro x hx
  rw [List.map_cons, List.nodup_cons] at h
  have : x.1 ≠ e.1 := by
    intro q
    exact h.1 (by rw [← q]; exact List.mem_map_of_mem (f := (·.1)) hx)
  simpa using this

theorem TreeMid.sub {fs fs1 : FS} {d : Ino} {rank} (h : Ranked fs rank) {done todo : List (Bytes × Ino)}
    (hd : fs d = .dir (done ++ todo)) (m : TreeMid fs d done todo fs1) : Sub fs1 fs := by
  have key : ∀ x, x ≠ d → fs1 x = .absent ∨ fs1 x = fs x := by
    intro x hx
    by_cases hg : ∃ e ∈ done, fs.isDir e.2 = true ∧ Below fs e.2 x
    · exact Or.inl (m.gone x hg)
    · exact Or.inr (m.rest x hx hg)
  refine ⟨?_, ?_, ?_, ?_⟩
  · rintro y nm i ⟨es, h1, h2⟩
    by_cases hy : y = d
    · subst hy
      rw [m.dir] at h1; injection h1 with h1; subst h1
      exact ⟨_, hd, List.mem_append_right _ h2⟩
    · rcases key y hy with q | q
      · rw [q] at h1; cases h1
      · exact ⟨es, by rw [← q]; exact h1, h2⟩
  · intro i hi
    by_cases hy : i = d
    · subst hy; exact isDir_iff.2 ⟨_, hd⟩
    · obtain ⟨es, h1⟩ := isDir_iff.1 hi
      rcases key i hy with q | q
      · rw [q] at h1; cases h1
      · exact isDir_iff.2 ⟨es, by rw [← q]; exact h1⟩
  · intro i t hi
    by_cases hy : i = d
    · subst hy; rw [m.dir] at hi; cases hi
    · rcases key i hy with q | q
      · rw [q] at hi; cases hi
      · rw [← q]; exact hi
  · intro y es hy
    by_cases hyd : y = d
    · subst hyd
      rw [m.dir] at hy; injection hy with hy; subst hy
      have := h.names y _ hd
      rw [List.map_append, List.nodup_append] at this
      exact this.2.1
    · rcases key y hyd with q | q
      · rw [q] at hy; cases hy
      · exact h.names y es (by rw [← q]; exact hy)

/-- One entry of the directory. -/
theorem step_mid (dtype : Bool) (root : Ino) (rank : Ino → Nat) (n : Nat)
    (IH : ∀ fs d init name p, Ranked fs rank → Leads fs root init p → HasEntry fs p name d → fs.isDir d = true →
      (dtype = true ∨ NoLinks fs d) → rank d < n →
      ∃ fs', rmtree dtype root n fs d (init ++ [name]) = some fs' ∧ Post fs p name d fs')
    (fs : FS) (d p : Ino) (init : List Bytes) (name : Bytes) (h : Ranked fs rank) (hl : Leads fs root init p)
    (hp : HasEntry fs p name d) (hn : dtype = true ∨ NoLinks fs d) (hr : rank d < n + 1)
    (done todo : List (Bytes × Ino)) (e : Bytes × Ino) (hd : fs d = .dir (done ++ e :: todo)) (fs1 : FS)
    (m : TreeMid fs d done (e :: todo) fs1) :
    ∃ fs2, (if isdir dtype fs1 e.2 then rmtree dtype root n fs1 (fs1.follow e.2) (init ++ [name] ++ [e.1])
        else sysUnlinkat fs1 d e.1) = some fs2 ∧ TreeMid fs d (done ++ [e]) todo fs2 := by
  have hs := m.sub h hd
  have hdir : fs.isDir d = true := isDir_iff.2 ⟨_, hd⟩
  have he0 : HasEntry fs d e.1 e.2 := ⟨_, hd, List.mem_append_right _ List.mem_cons_self⟩
  have he1 : HasEntry fs1 d e.1 e.2 := ⟨_, m.dir, List.mem_cons_self⟩
  have hnames := hs.names d _ m.dir
  by_cases hc : fs.isDir e.2 = true
  · -- a directory
    have hrc := h.lt _ _ _ he0 hc
    have hagree : ∀ y, Below fs e.2 y → fs1 y = fs y := by
      intro y hy
      have hry := hy.rank h
      refine m.rest y (by rintro rfl; omega) ?_
      rintro ⟨e', h1, h2, h3⟩
      have he' : HasEntry fs d e'.1 e'.2 := ⟨_, hd, List.mem_append_left _ h1⟩
      have heq := Below.disjoint h he' h2 he0 hc h3 hy
      rw [heq] at he'
      have hnm := (h.parent _ _ _ _ _ hc he' he0).2
      have hnd := h.names d _ hd
      rw [List.map_append, List.nodup_append] at hnd
      exact hnd.2.2 e'.1 (List.mem_map_of_mem (f := (·.1)) h1) e.1 (by simp) hnm
    have hc1 : fs1.isDir e.2 = true := by
      unfold FS.isDir at hc ⊢
      rw [hagree _ .self]; exact hc
    have hf1 := follow_dir hc1
    have hisd : isdir dtype fs1 e.2 = true := by
      unfold isdir
      rw [hf1, hc1]; simp
    rw [if_pos hisd, hf1]
    have hl1 : Leads fs1 root (init ++ [name]) d := by
      refine (hl.snoc hp hdir).congr h ?_ (isDir_iff.2 ⟨_, m.dir⟩)
      intro x hx
      refine m.rest x (by rintro rfl; omega) ?_
      rintro ⟨e', h1, h2, h3⟩
      have he' : HasEntry fs d e'.1 e'.2 := ⟨_, hd, List.mem_append_left _ h1⟩
      have := h.lt _ _ _ he' h2
      have := h3.rank h
      omega
    have hn1 : dtype = true ∨ NoLinks fs1 e.2 := by
      refine hn.imp id fun q => ?_
      intro y nm i t hb he' hlnk
      exact q y nm i t ((Below.sub .self he0 hc).trans (Below.mono hs hb)) (hs.entry _ _ _ he') (hs.link _ _ hlnk)
    obtain ⟨fs2, e2, P⟩ := IH fs1 e.2 (init ++ [name]) e.1 d (h.mono hs) hl1 he1 hc1 hn1 (by omega)
    have hdb : ¬ Below fs1 e.2 d := by
      intro q
      have := (Below.mono hs q).rank h
      omega
    refine ⟨fs2, e2, ⟨?_, ?_, ?_⟩⟩
    · rw [P.par _ m.dir, filter_head hnames]
    · rintro x ⟨e', h1, h2, h3⟩
      by_cases hb : Below fs1 e.2 x
      · exact P.gone x hb
      · rcases List.mem_append.1 h1 with h1 | h1
        · have hxd : x ≠ d := by
            rintro rfl
            have he' : HasEntry fs x e'.1 e'.2 := ⟨_, hd, List.mem_append_left _ h1⟩
            have := h.lt _ _ _ he' h2
            have := h3.rank h
            omega
          rw [P.rest x hb hxd]
          exact m.gone x ⟨e', h1, h2, h3⟩
        · rw [List.mem_singleton.1 h1] at h3
          exact absurd (Below.congr hagree h3) hb
    · intro x hx hno
      have hb : ¬ Below fs1 e.2 x := fun q =>
        hno ⟨e, List.mem_append_right _ (List.mem_singleton_self _), hc, Below.mono hs q⟩
      rw [P.rest x hb hx]
      refine m.rest x hx ?_
      rintro ⟨e', h1, h2⟩
      exact hno ⟨e', List.mem_append_left _ h1, h2⟩
  · -- anything else
    have hc1 : fs1.isDir e.2 = false := by
      cases hq : fs1.isDir e.2 with
      | false => rfl
      | true => exact absurd (hs.dir _ hq) hc
    have hisd : isdir dtype fs1 e.2 = false := by
      unfold isdir
      rcases hn with rfl | hn
      · simpa using hc1
      · have : fs1.follow e.2 = e.2 := by
          unfold FS.follow
          cases hq : fs1 e.2 with
          | link t => exact absurd (hs.link _ _ hq) (hn d e.1 e.2 t .self he0)
          | _ => rfl
        rw [this, hc1]; simp
    rw [if_neg (by rw [hisd]; simp)]
    unfold sysUnlinkat
    rw [entry_of_has hs.names he1]
    refine ⟨fs1.without d e.1, by simp [hc1], ?_⟩
    have hw : fs1.without d e.1 = upd fs1 d (.dir todo) := by
      unfold FS.without
      rw [m.dir]
      simp only
      rw [filter_head hnames]
    rw [hw]
    have hex : ∀ x, (∃ e' ∈ done ++ [e], fs.isDir e'.2 = true ∧ Below fs e'.2 x) ↔
        ∃ e' ∈ done, fs.isDir e'.2 = true ∧ Below fs e'.2 x := by
      intro x
      constructor
      · rintro ⟨e', h1, h2, h3⟩
        rcases List.mem_append.1 h1 with h1 | h1
        · exact ⟨e', h1, h2, h3⟩
        · rw [List.mem_singleton.1 h1] at h2; exact absurd h2 hc
      · rintro ⟨e', h1, h2⟩; exact ⟨e', List.mem_append_left _ h1, h2⟩
    refine ⟨by simp, ?_, ?_⟩
    · intro x hx
      rw [hex] at hx
      have hxd : x ≠ d := by
        rintro rfl
        obtain ⟨e', h1, h2, h3⟩ := hx
        have he' : HasEntry fs x e'.1 e'.2 := ⟨_, hd, List.mem_append_left _ h1⟩
        have := h.lt _ _ _ he' h2
        have := h3.rank h
        omega
      rw [upd_ne _ _ hxd]
      exact m.gone x hx
    · intro x hx hno
      rw [hex] at hno
      rw [upd_ne _ _ hx]
      exact m.rest x hx hno

theorem without_ne {fs : FS} {p x : Ino} {name : Bytes} (h : x ≠ p) : fs.without p name x = fs x := by
  unfold FS.without
  cases fs p with
  | dir es => exact upd_ne _ _ h
  | _ => rfl

theorem rmtree_spec (dtype : Bool) (root : Ino) (rank : Ino → Nat) : ∀ (n : Nat) (fs : FS) (d : Ino) (init : List Bytes)
    (name : Bytes) (p : Ino), Ranked fs rank → Leads fs root init p → HasEntry fs p name d → fs.isDir d = true →
    (dtype = true ∨ NoLinks fs d) → rank d < n →
    ∃ fs', rmtree dtype root n fs d (init ++ [name]) = some fs' ∧ Post fs p name d fs' := by
  intro n
  induction n with
  | zero => intro _ _ _ _ _ _ _ _ _ _ hr; omega
  | succ n IH =>
    intro fs d init name p h hl hp hdir hn hr
    obtain ⟨es, hd⟩ := isDir_iff.1 hdir
    have loop : ∀ (todo done : List (Bytes × Ino)) (fs1 : FS), es = done ++ todo → TreeMid fs d done todo fs1 →
        ∃ fs2, todo.foldlM (fun fs e =>
          if isdir dtype fs e.2 then rmtree dtype root n fs (fs.follow e.2) (init ++ [name] ++ [e.1])
          else sysUnlinkat fs d e.1) fs1 = some fs2 ∧ TreeMid fs d es [] fs2 := by
      intro todo
      induction todo with
      | nil =>
        intro done fs1 h0 m
        rw [List.append_nil] at h0; subst h0
        exact ⟨fs1, rfl, m⟩
      | cons e todo ih =>
        intro done fs1 h0 m
        obtain ⟨fs2, e2, m2⟩ := step_mid dtype root rank n IH fs d p init name h hl hp hn hr done todo e (h0 ▸ hd) fs1 m
        obtain ⟨fs3, e3, m3⟩ := ih (done ++ [e]) fs2 (by rw [h0, List.append_assoc]; rfl) m2
        refine ⟨fs3, ?_, m3⟩
        rw [List.foldlM_cons, e2]
        exact e3
    obtain ⟨fs2, e2, m⟩ := loop es [] fs rfl ⟨hd, fun x q => (by obtain ⟨_, q, _⟩ := q; cases q), fun _ _ _ => rfl⟩
    have hs := m.sub h (by rw [List.append_nil]; exact hd)
    have hpd := h.lt _ _ _ hp hdir
    have hbig : ∀ x, rank d < rank x → fs2 x = fs x := by
      intro x hx
      refine m.rest x (by rintro rfl; omega) ?_
      rintro ⟨e', h1, h2, h3⟩
      have := h.lt _ _ _ ⟨_, hd, h1⟩ h2
      have := h3.rank h
      omega
    have hp2 : HasEntry fs2 p name d := by
      obtain ⟨es', h1, h2⟩ := hp
      exact ⟨es', (hbig p hpd).trans h1, h2⟩
    have hl2 : Leads fs2 root init p := by
      refine hl.congr h (fun x hx => hbig x (by omega)) ?_
      obtain ⟨es', h1, _⟩ := hp2
      exact isDir_iff.2 ⟨es', h1⟩
    have hne : p ≠ d := by rintro rfl; omega
    refine ⟨upd (fs2.without p name) d .absent, ?_, ⟨?_, ?_, ?_⟩⟩
    · unfold rmtree
      rw [hd]
      simp only [e2]
      show sysRemove fs2 root (init ++ [name]) = _
      unfold sysRemove
      rw [List.getLast?_concat, List.dropLast_concat]
      simp only
      rw [Leads.walk hs.names hl2]
      show (match fs2.entry p name with | none => _ | some i => _) = _
      rw [entry_of_has hs.names hp2]
      simp only [m.dir]
    · intro x hx
      by_cases hxd : x = d
      · subst hxd; simp
      · rw [upd_ne _ _ hxd]
        have hxp : x ≠ p := by
          rintro rfl
          have := hx.rank h
          omega
        have hw : fs2.without p name x = fs2 x := by
          exact without_ne hxp
        rw [hw]
        rcases hx.child hd with q | q
        · exact absurd q hxd
        · exact m.gone x q
    · intro es' he
      rw [upd_ne _ _ hne]
      unfold FS.without
      rw [hbig p hpd, he]
      simp
    · intro x hx hxp
      have hxd : x ≠ d := by rintro rfl; exact hx .self
      rw [upd_ne _ _ hxd]
      have hw : fs2.without p name x = fs2 x := by
        exact without_ne hxp
      rw [hw]
      refine m.rest x hxd ?_
      rintro ⟨e', h1, h2, h3⟩
      exact hx ((Below.sub (name := e'.1) .self ⟨_, hd, h1⟩ h2).trans h3)

/-- `rmtree` of a directory that is not reached through links: every directory below it is gone, its name is taken
out of the directory it is in, and everything else is as before, also what the links below it lead to.  This
holds if the file system tells the types of entries, or if there are no links below the directory. -/
theorem C40_rmtree_partial (dtype : Bool) (root : Ino) (fs : FS) (h : Hierarchy fs) (init : List Bytes) (name : Bytes)
    (p d : Ino) (hl : Leads fs root init p) (hp : HasEntry fs p name d) (hd : fs.isDir d = true)
    (hn : dtype = true ∨ NoLinks fs d) :
    ∃ fs', (∃ n0, ∀ n, n0 ≤ n → rmtreePath dtype root n fs (init ++ [name]) = some fs') ∧
      (∀ x, Below fs d x → fs' x = .absent) ∧
      (∀ es, fs p = .dir es → fs' p = .dir (es.filter fun e => e.1 ≠ name)) ∧
      (∀ x, ¬ Below fs d x → x ≠ p → fs' x = fs x) := by
  obtain ⟨rank, hr⟩ := h.acyclic
  have hR : Ranked fs rank := ⟨h.names, h.parent, hr⟩
  obtain ⟨fs', e, P⟩ := rmtree_spec dtype root rank (rank d + 1) fs d init name p hR hl hp hd hn (by omega)
  refine ⟨fs', ⟨rank d + 1, fun n hle => ?_⟩, P.gone, P.par, P.rest⟩
  obtain ⟨fs'', e', P'⟩ := rmtree_spec dtype root rank n fs d init name p hR hl hp hd hn (by omega)
  have heq : fs'' = fs' := by
    funext x
    by_cases hb : Below fs d x
    · rw [P.gone x hb, P'.gone x hb]
    · by_cases hx : x = p
      · subst hx
        obtain ⟨es, h1, _⟩ := hp
        rw [P.par es h1, P'.par es h1]
      · rw [P.rest x hb hx, P'.rest x hb hx]
  unfold rmtreePath
  rw [Leads.walk h.names (hl.snoc hp hd)]
  show rmtree dtype root n fs d (init ++ [name]) = _
  rw [e', heq]

/-- A file system: `/a/b/` with a file and a link to `/c`; `/c/` with a file. -/
def sampleFS : FS
  | 0 => .dir [([97], 1), ([99], 5)]
  | 1 => .dir [([98], 2)]
  | 2 => .dir [([102], 3), ([108], 4)]
  | 3 => .file
  | 4 => .link 5
  | 5 => .dir [([103], 6)]
  | 6 => .file
  | _ => .absent

/-- Where the file system does not tell the types of entries, links to directories are followed: the files in
`/c` are removed by `rmtree("/a")`, because of the link `/a/b/l`. -/
theorem C40_violated_no_type : ∃ fs', rmtreePath false 0 10 sampleFS [[97]] = some fs' ∧
    sampleFS 5 = .dir [([103], 6)] ∧ fs' 5 = .dir [] := by
  have h : ((rmtreePath false 0 10 sampleFS [[97]]).map fun fs => fs 5) = some (.dir []) := by decide
  cases hq : rmtreePath false 0 10 sampleFS [[97]] with
  | none => rw [hq] at h; cases h
  | some fs' => rw [hq] at h; exact ⟨fs', rfl, rfl, by simpa using h⟩

/-- `rmtree` of a link to a directory removes what is in that directory, and the link: `/a/b/l`. -/
theorem C40_violated_link : ∃ fs', rmtreePath true 0 10 sampleFS [[97], [98], [108]] = some fs' ∧
    fs' 5 = .dir [] ∧ fs' 2 = .dir [([102], 3)] := by
  have h : ((rmtreePath true 0 10 sampleFS [[97], [98], [108]]).map fun fs => (fs 5, fs 2)) =
      some (.dir [], .dir [([102], 3)]) := by decide
  cases hq : rmtreePath true 0 10 sampleFS [[97], [98], [108]] with
  | none => rw [hq] at h; cases h
  | some fs' =>
    rw [hq] at h
    have h' : (fs' 5, fs' 2) = (Node.dir [], Node.dir [([102], 3)]) := by simpa using h
    exact ⟨fs', rfl, congrArg Prod.fst h', congrArg Prod.snd h'⟩

theorem sample_entry {d : Ino} {name : Bytes} {i : Ino} (h : HasEntry sampleFS d name i) :
    (d, name, i) ∈ [(0, [97], 1), (0, [99], 5), (1, [98], 2), (2, [102], 3), (2, [108], 4), (5, [103], 6)] := by
  obtain ⟨es, h1, h2⟩ := h
  unfold sampleFS at h1
  split at h1 <;> cases h1 <;> simp at h2 <;> simp [h2]

/-- The sample meets the hypotheses, for `/a`. -/
example : Hierarchy sampleFS ∧ Leads sampleFS 0 [] 0 ∧ HasEntry sampleFS 0 [97] 1 ∧ sampleFS.isDir 1 = true ∧
    Below sampleFS 1 2 ∧ ¬ Below sampleFS 1 5 := by
  have hpar : ∀ d d' name name' c, sampleFS.isDir c = true → HasEntry sampleFS d name c → HasEntry sampleFS d' name' c →
      d = d' ∧ name = name' := by
    intro d d' name name' c hc h1 h2
    have h1 := sample_entry h1
    have h2 := sample_entry h2
    simp at h1 h2
    rcases h1 with ⟨rfl, rfl, rfl⟩ | ⟨rfl, rfl, rfl⟩ | ⟨rfl, rfl, rfl⟩ | ⟨rfl, rfl, rfl⟩ | ⟨rfl, rfl, rfl⟩ | ⟨rfl, rfl, rfl⟩ <;>
      simp at h2 <;> exact ⟨h2.1.symm, h2.2.symm⟩
  have hrank : ∀ d name c, HasEntry sampleFS d name c → sampleFS.isDir c = true → 10 - c < 10 - d := by
    intro d name c h1 _
    have h1 := sample_entry h1
    simp at h1
    rcases h1 with ⟨rfl, rfl, rfl⟩ | ⟨rfl, rfl, rfl⟩ | ⟨rfl, rfl, rfl⟩ | ⟨rfl, rfl, rfl⟩ | ⟨rfl, rfl, rfl⟩ | ⟨rfl, rfl, rfl⟩ <;> decide
  refine ⟨⟨?_, hpar, fun i => 10 - i, hrank⟩, .here 0, ⟨_, rfl, by simp⟩, rfl, .sub (name := [98]) .self ⟨_, rfl, by simp⟩ rfl, ?_⟩
  · intro d es h1
    unfold sampleFS at h1
    split at h1 <;> cases h1 <;> decide
  · intro h
    generalize hx : (5 : Ino) = x at h
    cases h with
    | self => cases hx
    | sub hy he _ =>
      subst hx
      have := sample_entry he
      simp at this
      obtain ⟨rfl, _⟩ := this
      generalize hx : (0 : Ino) = x at hy
      cases hy with
      | self => cases hx
      | sub _ he _ =>
        subst hx
        have := sample_entry he
        simp at this

end Msat.Props
