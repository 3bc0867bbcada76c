import Verif.Props.EntryTables
/-
The parameters of XPCS in the entry: #VA, #VD and #VE lines.
-/
namespace S2N.Props
open S2N Py H5 Eznx Writer Spec
section
variable [UniDB]

/-- a dictionary that was written -/
theorem dict_shown {α : Type} {s : H5} {E N : Str} {A : Dict AVal} {d : Dict α} {qs : Sets} {data : α → PData} {val : α → HData}
    (hv : ∀ x, (data x).toH = .ok (val x)) (hna : ∀ x a, noteAttrs (data x) a = a) (hn : d.keys.Nodup)
    (hq : List.Forall₂ OpPut (d.map (fun kv => (kv.1, data kv.2, []))) qs)
    (h : Shown s E N (some (.grp (Sets.puts [] qs) A))) : DictAt s E N A val d := by
  obtain ⟨h1, h2, h3⟩ := h
  refine ⟨h1, fun key t hkt hu => ?_, fun n hn => ?_⟩
  · obtain ⟨n, w, g1, g2, g3⟩ := put_of_op hq (o := (key, data t, [])) (List.mem_map.2 ⟨_, hkt, rfl⟩) (fun o' ho' he => by
      obtain ⟨kv, hkv, rfl⟩ := List.mem_map.1 ho'
      have e := hu kv.1 (List.mem_map.2 ⟨kv, hkv, rfl⟩) he
      have e2 : kv.2 = t := by
        have a1 := get?_of_mem_nodup hn hkt
        have a2 := get?_of_mem_nodup hn (show (kv.1, kv.2) ∈ d from hkv)
        rw [e, a1] at a2
        injection a2 with a2
        exact a2.symm
      rw [e, e2]) (V := []) (by simp [Dict.keys])
    refine ⟨n, g1, ?_⟩
    rw [h3, g3]
    simp only [hv, Except.ok.injEq] at g2
    subst g2
    rw [hna]
    rfl
  · rw [h2] at hn
    rcases keys_puts _ _ _ hn with h9 | ⟨q, h9, h10⟩
    · simp [Dict.keys] at h9
    · obtain ⟨o, ho, hp⟩ := op_of_put hq q h9
      obtain ⟨kv, hkv, rfl⟩ := List.mem_map.1 ho
      exact ⟨kv.1, List.mem_map.2 ⟨kv, hkv, rfl⟩, by rw [← h10]; exact hp.1⟩

/-- the writer of the parameters -/
def xpcsFn : Xpcs → H5Fn
  | .VA => .VA
  | .VD => .VD
  | .VE => .VE

theorem slotted_xpcs (i : Xpcs) : Slotted (fun n => n = i.name) (fun f => f = xpcsFn i) Always Always
    (fun _ x W W' => (W i.name = none ∧ ∃ d qs, i.of x = some d ∧
      List.Forall₂ OpPut (d.map (fun kv => (kv.1, .strs (splitWs kv.2), []))) qs ∧
        W' = upd W i.name (some (.grp (Sets.puts [] qs) i.attrs)))) where
  data := by cases i <;> decide
  avoids := by
    refine one_avoids ?_ ?_
    · intro f hf
      cases i <;> cases f <;> first | exact absurd rfl hf | decide
    · intro _; cases i <;> decide
  step := by
    rintro f hf c e hdr x y K v W s s' _ _ hid h hw
    have hw' : (HM.andThen (wV e i.name (i.of x)) fun _ => HM.ret x) s = (s', .ok y) := by
      subst hf
      match i with
      | .VA => exact hw
      | .VD => exact hw
      | .VE => exact hw
    obtain ⟨t, u, hb, h2⟩ := HM.andThen_inv hw'
    obtain ⟨_, rfl⟩ := HM.ret_inv h2
    unfold wV at hb
    obtain ⟨t1, g, k1, k2⟩ := HM.bind_inv hb
    have hp : Plain i.name := by cases i <;> decide
    obtain ⟨j1, j2, j3⟩ := h.newGroup hid rfl hp.single k1
    cases hx : i.of x with
    | none =>
      rw [hx] at k2
      obtain ⟨_, _, k3, _⟩ := HM.bind_inv k2
      cases k3
    | some d =>
    rw [hx] at k2
    obtain ⟨_, d', k3, k2⟩ := HM.bind_inv k2
    obtain ⟨rfl, rfl⟩ := HM.ret_inv k3
    obtain ⟨K', qs, q1, q2⟩ := Slots.dict (X := fun n => n = i.name) (N := i.name) rfl _ j3 (upd_self ..) (by rw [upd_self, j2]) k2
    rw [upd_upd] at q2
    refine ⟨K', _, _, q2, trivial, j1, _, qs, rfl, ?_, rfl⟩
    rw [List.map_map] at q1
    exact q1
  init := trivial
  pL := fun _ _ _ => trivial
  withL := fun _ _ _ _ h _ => by cases i <;> exact h

/-- C84: the parameters of the #VA, #VD and #VE lines of the header of a scan are, word by word, the datasets of
the groups `VA`, `VD` and `VE` of its entry; without such lines in the header there is no such group. -/
theorem C84_parameters {env : Env} {reg : List HKey} (hr : reg.Perm HKey.all) (hx : SchemaNames env) {v : Versions}
    {ks : List Ref} {s : Sdf} {r : SState} (hs : Savable s) (hk : ∀ k ∈ ks, PlainText k.text)
    (h : save env reg v ks s = (r, none)) {k : Ref} (hm : k ∈ ks) {z : Obj} (hz : r.sdf.getScan k = .ok (some z)) (i : Xpcs) :
    (∀ d, i.of (r.sdf.headerOf z) = some d → DictAt r.h5 (entryName k) i.name i.attrs wordsData d) ∧
    (i.of (r.sdf.headerOf z) = none → objAt r.h5 [entryName k, i.name] = none) := by
  obtain ⟨m, x, y, e, chE, en, hw, hh, hi⟩ := entry_of' hr hx hs hk h hm hz
  obtain ⟨hdr, W1, W2, hl, hwh, q1, q2, hsh⟩ := en.slots (slotted_xpcs i)
    (by rintro _ _ rfl rfl; rfl) hw hh (by cases i <;> decide) (by cases i <;> decide) (by cases i <;> decide) (by cases i <;> decide)
    (fun _ _ => trivial) trivial
  have hQ : i.of (r.sdf.headerOf z) = i.of hdr := by obtain ⟨O, d, ep, e⟩ := hl; rw [e]; cases i <;> rfl
  rw [hQ]
  have hreg : ∀ {k : Kind} {x : Obj}, Writers k x → (xpcsFn i ∈ x.h5.values ↔ x.kind = .header ∧ i.of x ≠ none) := by
    intro k x hw
    obtain ⟨_, _, _, _, _, _, a, b, c, _⟩ := hw.more
    cases i <;> assumption
  have hz2 : W2 = W1 := outcome_zero q2 fun hm => by
    have := ((hreg hw).1 hm).1
    rw [hw.kind] at this
    cases this
  subst hz2
  have hsh := hsh _ rfl
  constructor
  · intro d hd
    obtain ⟨_, d', qs, e1, e2, e3⟩ := outcome_one q1 ((hreg hwh).2 ⟨hwh.kind, by rw [hd]; simp⟩)
    rw [hd] at e1
    injection e1 with e1
    subst e1
    rw [e3, upd_self] at hsh
    refine dict_shown (data := fun t => .strs (splitWs t)) (fun t => ?_) (fun t a => rfl) ?_ e2 hsh
    · unfold wordsData
      cases splitWs t <;> rfl
    · obtain ⟨_, _, _, _, _, _, _, _, _, _, a, b, c, _⟩ := hwh.more
      have h0 : ((i.of hdr).getD []).keys.Nodup := by cases i <;> assumption
      rw [hd] at h0
      exact h0
  · intro hd
    have : W2 = Known.nil := outcome_zero q1 fun hm => ((hreg hwh).1 hm).2 hd
    rw [this] at hsh
    exact hsh

end

/-- a header with lines of parameters; the #VD line of the scan is not written -/
def xpcsText : Str := demoHead ++ join p!"\n" [[], p!"#VA0 1 two  3.0", p!"#VA12 ", p!"#VE3 x",
  [], p!"#S 1 ascan  th 0 1 2 1", p!"#D Wed Jun 16 18:24:36 2010", p!"#VD0 4", p!"#N 2", p!"#L th  I0", p!"0.5 1", p!"1.5 3", []]

/-- the file object -/
def xpcsFile : Except PyErr Sdf :=
  @Sdf.openFile asciiDB saveEnv HKey.all p!"demo.dat" (fileAt xpcsText 1) (fileAt xpcsText 1)

/-- what the examples look at after a save -/
def xpcsDemo (ks : List Ref) : Option (Bool × Option PyErr × H5 × Sdf) :=
  match xpcsFile with
  | .error _ => none
  | .ok s =>
    let r := @save asciiDB saveEnv HKey.all saveVersions ks s
    some (@savableB asciiDB s, r.2, r.1.h5, r.1.sdf)

/-- C84: the hypotheses are met by this file -/
theorem C84_nonvacuous : letI : UniDB := asciiDB
    ∃ s r z, Savable s ∧ save saveEnv HKey.all saveVersions [.int 1] s = (r, none) ∧
      r.sdf.getScan (.int 1) = .ok (some z) ∧
      Xpcs.VA.of (r.sdf.headerOf z) = some [(p!"VA0", p!"1 two  3.0"), (p!"VA12", [])] ∧
      Xpcs.VD.of (r.sdf.headerOf z) = none ∧ z.VD ≠ none := by
  letI : UniDB := asciiDB
  have hd : (match xpcsDemo [.int 1] with
    | none => false
    | some (b, e, _, sdf) =>
      b && e.isNone &&
      (match sdf.getScan (.int 1) with
      | .ok (some z) =>
        decide (Xpcs.VA.of (sdf.headerOf z) = some [(p!"VA0", p!"1 two  3.0"), (p!"VA12", [])]) &&
        decide (Xpcs.VD.of (sdf.headerOf z) = none) && decide (z.VD ≠ none)
      | _ => false)) = true := by decide +kernel
  unfold xpcsDemo at hd
  cases hs : xpcsFile with
  | error e => rw [hs] at hd; cases hd
  | ok s =>
    rw [hs] at hd
    simp only at hd
    cases hr : save saveEnv HKey.all saveVersions [.int 1] s with
    | mk r e =>
      rw [hr] at hd
      simp only at hd
      cases hz : r.sdf.getScan (.int 1) with
      | error e => rw [hz] at hd; simp at hd
      | ok o =>
        rw [hz] at hd
        cases o with
        | none => simp at hd
        | some z =>
          simp only [Bool.and_eq_true, decide_eq_true_eq, Option.isNone_iff_eq_none] at hd
          obtain ⟨⟨b1, b2⟩, ⟨b3, b4⟩, b5⟩ := hd
          subst b2
          exact ⟨s, r, z, savable_of_b b1, hr, hz, b3, b4, b5⟩

/-- C84: what is written of that file -/
theorem C84_example :
    (xpcsDemo [.int 1]).map (fun r => decide (childrenAt r.2.2.1 [p!"S1", p!"VA"] = [p!"VA0", p!"VA12"])) = some true ∧
    (xpcsDemo [.int 1]).map (fun r => decide (datasetAt r.2.2.1 [p!"S1", p!"VA", p!"VA0"] =
      some (.text [p!"1", p!"two", p!"3.0"], [(p!"spec_name", .str p!"VA0")]))) = some true ∧
    (xpcsDemo [.int 1]).map (fun r => decide (datasetAt r.2.2.1 [p!"S1", p!"VA", p!"VA12"] =
      some (.nums ⟨[], [0]⟩, [(p!"spec_name", .str p!"VA12")]))) = some true ∧
    (xpcsDemo [.int 1]).map (fun r => decide (childrenAt r.2.2.1 [p!"S1", p!"VE"] = [p!"VE3"])) = some true ∧
    (xpcsDemo [.int 1]).map (fun r => (objAt r.2.2.1 [p!"S1", p!"VD"]).isNone) = some true := by decide +kernel

end S2N.Props
