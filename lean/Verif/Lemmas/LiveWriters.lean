import Verif.Lemmas.Live
import Verif.Spec.Total
/-
The writers do not raise.
-/
namespace S2N
open Py H5 Eznx Writer Spec

/-- an ordinary name of the entry -/
def Ordinary (n : Str) : Prop := Single n ∧ n ≠ inst ∧ n ≠ smp ∧ n ∉ sharedGroups

theorem toH_num (n : Num) : ∃ y, (PData.num n).toH = .ok y := ⟨_, rfl⟩
theorem toH_str (t : Str) : ∃ y, (PData.str t).toH = .ok y := ⟨_, rfl⟩
theorem toH_nums (l : List Num) : ∃ y, (PData.nums l).toH = .ok y := ⟨_, rfl⟩
theorem toH_range (n : Nat) : ∃ y, (PData.range n).toH = .ok y := ⟨_, rfl⟩
theorem toH_strs (l : List Str) : ∃ y, (PData.strs l).toH = .ok y := by cases l <;> exact ⟨_, rfl⟩
theorem toH_nd (a : NdArray Num) : ∃ y, (PData.nd a).toH = .ok y := by
  rcases a with ⟨f, _ | ⟨_ | n, sh⟩⟩ <;> exact ⟨_, rfl⟩

theorem toH_rows {l : List (List Num)} (h : l = [] ∨ SameLengths l) : ∃ y, (PData.rows l).toH = .ok y := by
  rcases h with rfl | ⟨r, rs, rfl, h⟩
  · exact ⟨_, rfl⟩
  · refine ⟨.nums ⟨unify (r :: rs).flatten, [rs.length + 1, r.length]⟩, ?_⟩
    have hb : rs.all (fun r' => r'.length == r.length) = true := by
      rw [List.all_eq_true]
      intro r' hr'
      simp [h r' hr']
    simp only [PData.toH, hb, if_true]

section
variable [UniDB]

theorem clean_ok {l : Str} (h : l ≠ []) : ∃ n, cleanName l = .ok n ∧ Single n := by
  cases hc : cleanName l with
  | error e => exact absurd ((Props.C32_raises_iff_empty l).1 ⟨e, hc⟩) h
  | ok n => exact ⟨n, rfl, clean_single hc⟩

end

/-- A group `g` of one's own: the members of the entry are `v` as long as one works there. -/
structure Work (E : Str) (e : Nat) (I S : Option Nat) (b : Book) (g : Nat) (v : Str → Option Nat) (s : H5) : Prop where
  live : Live E e I S b s
  own : Own e I S g
  grp : IsGroup s g
  ent : ∀ m, child s e m = v m

variable {E : Str} {e : Nat} {I S : Option Nat} {b : Book} {s : H5}

/-- a dataset in a group of one's own -/
theorem Work.write {v : Str → Option Nat} {g : HRef} (h : Work E e I S b g.id v s) {n : Str} (hn : Single n) {d : PData}
    (hd : ∃ y, d.toH = .ok y) (a : Dict AVal) : Runs (writeDataset g n d a) s fun _ s' => Work E e I S b g.id v s' := by
  obtain ⟨y, hd⟩ := hd
  obtain ⟨ch, hc⟩ := h.grp
  refine (runs_write h.live.wf hc hn hd a).mono ?_
  rintro o s' ⟨-, st, -, -⟩
  exact ⟨h.live.far st h.own, h.own, st.group h.grp, fun m => (st.other h.live.group.lt (Ne.symm h.own.entry) m).trans (h.ent m)⟩

theorem Work.attrs {v : Str → Option Nat} {g : HRef} (h : Work E e I S b g.id v s) (a : Dict AVal) :
    Runs (addAttributes g a) s fun _ s' => Work E e I S b g.id v s' := by
  refine (runs_addAttributes h.live.wf h.grp.lt a).mono ?_
  intro _ s' st
  exact ⟨h.live.stay st, h.own, st.group h.grp, fun m => (st.child e m).trans (h.ent m)⟩

/-- a dataset of the entry -/
theorem Live.write (h : Live E e I S b s) {n : Str} (hn : Ordinary n) {d : PData} (hd : ∃ y, d.toH = .ok y) (a : Dict AVal) :
    Runs (writeDataset ⟨e, [E]⟩ n d a) s fun o s' => Live E e I S (b.add n) s' ∧ o.id < s'.length := by
  obtain ⟨y, hd⟩ := hd
  obtain ⟨ch, hc⟩ := h.group
  refine (runs_write (r := ⟨e, [E]⟩) h.wf hc hn.1 hd a).mono ?_
  rintro o s' ⟨ho, st, hl, -⟩
  exact ⟨h.put st hn.2.1 hn.2.2.1 (fun q => absurd q hn.2.2.2), by rw [ho, hl]; simp⟩

theorem Live.missing (h : Live E e I S b s) {n : Str} (hn : n ∉ b.top) : child s e n = none := by
  cases hc : child s e n with
  | none => rfl
  | some j => exact absurd (h.top n (by rw [hc]; simp)) hn

/-- a group of the entry -/
theorem Live.make (h : Live E e I S b s) {n : Str} (hn : Ordinary n) (hf : n ∉ b.top) (cls : Str) (a : Dict AVal) :
    Runs (makeGroup ⟨e, [E]⟩ n cls a) s fun g s' => g = ⟨s.length, [E, n]⟩ ∧ kids s' g.id = some [] ∧
      ∃ v, v n = some g.id ∧ Work E e I S (b.add n) g.id v s' := by
  obtain ⟨ch, hc⟩ := h.group
  have hf' := h.missing hf
  rw [child_eq hc] at hf'
  refine (runs_make (r := ⟨e, [E]⟩) h.wf hc hn.1 hf' cls a).mono ?_
  rintro o s' ⟨rfl, st, hl, hk⟩
  exact ⟨rfl, hk, child s' e, (st.child h.group).2.1, h.put st hn.2.1 hn.2.2.1 (fun q => absurd q hn.2.2.2), h.own, ⟨_, hk⟩, fun _ => rfl⟩

/-- less may be known -/
theorem Live.weaken (h : Live E e I S b s) {b' : Book} (h1 : ∀ n ∈ b.top, n ∈ b'.top) (h2 : ∀ n ∈ b.inst, n ∈ b'.inst)
    (h3 : ∀ n ∈ b.samp, n ∈ b'.samp) (h4 : ∀ n ∈ b'.must, child s e n ≠ none) : Live E e I S b' s :=
  { h with
    top := fun n hn => h1 n (h.top n hn)
    must := h4
    hub := fun i hi => by
      obtain ⟨q1, q2, q3, q4, q5⟩ := h.hub i hi
      exact ⟨q1, q2, q3, q4, fun n hn => h2 n (q5 n hn)⟩
    samp := fun i hi => by
      obtain ⟨q1, q2, q3, q5⟩ := h.samp i hi
      exact ⟨q1, q2, q3, fun n hn => h3 n (q5 n hn)⟩ }

theorem Live.noted (h : Live E e I S b s) {n : Str} (hn : child s e n ≠ none) : Live E e I S (b.add n) s :=
  h.weaken (fun _ q => List.mem_cons_of_mem _ q) (fun _ q => q) (fun _ q => q) fun m hm => by
    rcases List.mem_cons.1 hm with rfl | hm
    · exact hn
    · exact h.must m hm

/-- what happens elsewhere when a group is opened -/
structure Opened (e : Nat) (n : Str) (s s' : H5) : Prop where
  len : s.length ≤ s'.length
  entry : ∀ m, m ≠ n → child s' e m = child s e m
  other : ∀ i, i < s.length → i ≠ e → ∀ m, child s' i m = child s i m
  group : ∀ i, IsGroup s i → IsGroup s' i

theorem Stay.opened {s' : H5} (st : Stay s s') (e : Nat) (n : Str) : Opened e n s s' :=
  ⟨Nat.le_of_eq st.len.symm, fun m _ => st.child e m, fun i _ _ m => st.child i m, fun _ h => st.group h⟩

theorem Step.opened {s' : H5} {n : Str} {j : Nat} (st : Step e n j s s') (h : IsGroup s e) : Opened e n s s' :=
  ⟨st.len, (st.child h).2.2, fun _ hi hne m => st.other hi hne m, fun _ h => st.group h⟩

/-- the group "instrument" is there, or new -/
theorem Live.openInst (h : Live E e I S b s) (cls : Str) (a : Dict AVal) :
    Runs (openGroup ⟨e, [E]⟩ inst cls a) s fun o s' => ∃ i, o = ⟨i, [E, inst]⟩ ∧ Live E e (some i) S (b.add inst) s' ∧
      (∀ g, g < s.length → Own e I S g → Own e (some i) S g) ∧ Opened e inst s s' := by
  obtain ⟨ch, hc⟩ := h.group
  have hs : Single inst := (by decide : Plain inst).single
  have hi := h.isInst
  cases I with
  | some i =>
    have hj := hi
    rw [child_eq hc] at hj
    refine (runs_openOld (r := ⟨e, [E]⟩) h.wf hc hs hj cls a).mono ?_
    rintro o s' ⟨rfl, st⟩
    exact ⟨i, rfl, (h.stay st).noted (by rw [st.child, hi]; simp), fun _ _ q => q, st.opened e inst⟩
  | none =>
    have hj := hi
    rw [child_eq hc] at hj
    refine (runs_openNew (r := ⟨e, [E]⟩) h.wf hc hs hj cls a).mono ?_
    rintro o s' ⟨rfl, st, hl, hk⟩
    refine ⟨s.length, rfl, h.newInst st hk, fun g hg q => ⟨q.root, q.entry, ?_, q.samp⟩, st.opened h.group⟩
    intro q
    injection q with q
    omega

/-- a group opened by more than one writer -/
theorem Live.openShared (h : Live E e I S b s) {n : Str} (hn : n ∈ sharedGroups) (cls : Str) (a : Dict AVal) :
    Runs (openGroup ⟨e, [E]⟩ n cls a) s fun g s' => g.path = [E, n] ∧ ∃ v, v n = some g.id ∧ Work E e I S (b.add n) g.id v s' := by
  obtain ⟨ch, hc⟩ := h.group
  have hs : Single n ∧ n ≠ inst ∧ n ≠ smp := by
    revert hn
    unfold sharedGroups
    simp only [List.mem_cons, List.not_mem_nil, or_false]
    rintro (rfl | rfl | rfl)
    · exact ⟨(by decide : Plain p!"MCA").single, by decide, by decide⟩
    · exact ⟨(by decide : Plain p!"UserResults").single, by decide, by decide⟩
    · exact ⟨(by decide : Plain p!"UserReserved").single, by decide, by decide⟩
  cases hj : child s e n with
  | some j =>
    obtain ⟨q1, q2⟩ := h.shared n hn j hj
    have hj' := hj
    rw [child_eq hc] at hj'
    refine (runs_openOld (r := ⟨e, [E]⟩) h.wf hc hs.1 hj' cls a).mono ?_
    rintro o s' ⟨rfl, st⟩
    have hj'' : child s' e n = some j := by rw [st.child]; exact hj
    exact ⟨rfl, child s' e, hj'', (h.stay st).noted (by rw [hj'']; simp), q2, st.group q1, fun _ => rfl⟩
  | none =>
    have hj' := hj
    rw [child_eq hc] at hj'
    refine (runs_openNew (r := ⟨e, [E]⟩) h.wf hc hs.1 hj' cls a).mono ?_
    rintro o s' ⟨rfl, st, hl, hk⟩
    exact ⟨rfl, child s' e, (st.child h.group).2.1, h.put st hs.2.1 hs.2.2 (fun _ => ⟨⟨_, hk⟩, h.own⟩), h.own, ⟨_, hk⟩, fun _ => rfl⟩

/-- a group linked in the group "instrument" -/
theorem Work.link {v : Str → Option Nat} {g : HRef} {N M : Str} (h : Work E e I S b g.id v s) (hN : Plain N) (hg : g.path = [E, N])
    (hNi : N ≠ inst) (hv : v N = some g.id) (hM : Plain M) (hf : M ∉ b.inst) (cls : Str) :
    Runs (openGroup ⟨e, [E]⟩ inst cls [] >>= fun ins => makeLink ⟨e, [E]⟩ g (nameOf ins ++ '/' :: M)) s fun _ s' =>
      ∃ i, Live E e (some i) S ((b.add inst).addInst M) s' := by
  refine Runs.bind (h.live.openInst cls []) ?_
  rintro o s1 ⟨i, rfl, l1, -, op⟩
  obtain ⟨q1, q2, q3, q4, q5⟩ := l1.hub i rfl
  obtain ⟨ch, hc⟩ := q1
  have hge : child s1 e N = some g.id := by rw [op.entry N hNi, h.ent, hv]
  have hfree : ch.get? M = none := by
    rw [← child_eq hc]
    cases hm : child s1 i M with
    | none => rfl
    | some j => exact absurd (q5 M (by rw [hm]; simp)) hf
  have hgl : g.id < s1.length := Nat.lt_of_lt_of_le h.grp.lt op.len
  refine (runs_makeLink l1.wf ⟨e, [E]⟩ (o := g) (k := g.id) (q := [E, inst]) (m := M) (t := i) ?_ ?_ hgl hgl ?_ ?_ hc hfree (nameOf_three i 0 E M)).mono ?_
  · rw [hg]
    intro c hc
    simp only [List.mem_cons, List.not_mem_nil, or_false] at hc
    rcases hc with rfl | rfl
    · exact l1.plain
    · exact hN
  · rw [hg]
    exact .step l1.root (.step hge (.nil _))
  · intro c hc
    simp only [List.cons_append, List.nil_append, List.mem_cons, List.not_mem_nil, or_false] at hc
    rcases hc with rfl | rfl | rfl
    · exact l1.plain
    · decide
    · exact hM
  · exact .step l1.root (.step l1.isInst (.nil _))
  · rintro _ s2 ⟨st, -⟩
    exact ⟨i, l1.putInst rfl st⟩

section
variable [UniDB]

theorem Work.writeDs {v : Str → Option Nat} {g : HRef} (h : Work E e I S b g.id v s) {l : Str} (hl : l ≠ []) {d : PData}
    (hd : ∃ y, d.toH = .ok y) (a : Dict AVal) : Runs (Writer.writeDs g l d a) s fun _ s' => Work E e I S b g.id v s' := by
  obtain ⟨n, h1, h2⟩ := clean_ok hl
  unfold Writer.writeDs
  refine Runs.lift h1 ?_
  exact Runs.drop (h.write h2 hd _)

theorem Work.saveDict {v : Str → Option Nat} {g : HRef} (h : Work E e I S b g.id v s) {d : Dict PData}
    (hd : ∀ kv ∈ d, kv.1 ≠ [] ∧ ∃ y, kv.2.toH = .ok y) : Runs (Writer.saveDict g d) s fun _ s' => Work E e I S b g.id v s' :=
  Runs.each (J := fun s => Work E e I S b g.id v s) h fun kv hkv _ hs => hs.writeDs (hd kv hkv).1 (hd kv hkv).2 []

end
end S2N
