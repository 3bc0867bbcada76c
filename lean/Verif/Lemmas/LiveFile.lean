import Verif.Lemmas.LiveSave
import Verif.Lemmas.SaveRead
/-
Saving a list of scans does not raise.
-/
namespace S2N
open Py H5 Eznx Writer Spec

theorem dict_set_set {α : Type} (k : Str) (v w : α) : ∀ d : Dict α, (d.set k v).set k w = d.set k w
  | [] => by simp [Dict.set]
  | (a, x) :: d => by
    by_cases h : a = k
    · simp [Dict.set, h]
    · simp [Dict.set, h, dict_set_set k v w d]

section
variable [UniDB]

theorem putScan_twice (s : Sdf) {x0 x y hdr : Obj} (h1 : x.scanNum = x0.scanNum) (h2 : y.scanNum = x.scanNum) (h3 : y.hdrIdx = x.hdrIdx) :
    (s.putScan x0.scanNum ⟨x, hdr⟩).putScan y.scanNum ⟨y, hdr⟩ = s.putScan x0.scanNum ⟨y, hdr⟩ := by
  unfold Sdf.putScan
  simp only [h2, h1, h3, dict_set_set, List.set_set]

/-- one scan -/
theorem saveKey_runs {env : Env} {reg : List HKey} (hr : reg.Perm HKey.all) (hx : SchemaNames env) {S : SState} (hf : FileOk S.h5) (hs : SdfOk S.sdf)
    (first : Bool) {k : Ref} (hk : Plain (p!"S" ++ k.text)) (hn : child S.h5 0 (p!"S" ++ k.text) = none) {x0 x hdr : Obj}
    (hg : S.sdf.getScan k = .ok (some x0)) (hi : interpretScan env reg ⟨x0, S.sdf.headerOf x0⟩ = (⟨x, hdr⟩, none)) (hc : CanSave hdr x) :
    ∃ S' L, saveKey env reg first k S = (S', none) ∧ (NotBy x meshMacros → L = x.L) ∧ S'.sdf = S.sdf.putScan x0.scanNum ⟨{ x with L := L }, hdr⟩ := by
  obtain ⟨a1, a2, a3, a4, a5, a6⟩ := interp_ok_safe hr hx hs hg hi
  have hid := interp_ident env reg ⟨x0, S.sdf.headerOf x0⟩
  rw [hi] at hid
  have hxn : x.scanNum = x0.scanNum := congrArg Ident.scanNum hid
  obtain ⟨_, t1, e1, rfl, l1⟩ := runs_openEntry hk hf hn
  obtain ⟨y, t2, e2, ⟨⟨L, hL⟩, hy⟩, I, S2, b, l2⟩ := live_saveScan l1 hc a6 a5 a3 a1.names
  obtain ⟨_, t3, e3, -⟩ := live_closeEntry l2 first (key := k)
  refine ⟨⟨S.sdf.putScan x0.scanNum ⟨{ x with L := L }, hdr⟩, t3⟩, L, ?_, fun q => ?_, rfl⟩
  · unfold saveKey
    have hp := putScan_twice S.sdf (hdr := hdr) hxn (y := y) (by rw [hL]) (by rw [hL])
    simp only [SState.run, e1, hg, Res.eval, hi, e2, e3, hp]
    rw [hL]
    rfl
  · have := hy q
    rw [hL] at this
    exact congrArg Obj.L this

/-- the loop -/
theorem saveKeys_runs {env : Env} {reg : List HKey} (hr : reg.Perm HKey.all) (hx : SchemaNames env) : ∀ (ks : List Ref) (first : Bool) (S : SState),
    FileOk S.h5 → SdfOk S.sdf → (∀ k ∈ ks, Plain (p!"S" ++ k.text)) → (ks.map entryName).Nodup → (∀ k ∈ ks, child S.h5 0 (p!"S" ++ k.text) = none) →
    CanSaveAll env reg ks S.sdf → ∃ S', saveKeys env reg first ks S = (S', none)
  | [], first, S, _, _, _, _, _, _ => ⟨S, by cases first <;> rfl⟩
  | k :: ks, first, S, hf, hs, hk, hd, hn, hc => by
    obtain ⟨x0, x, hdr, hg, hi, hcs, hrest⟩ := hc
    obtain ⟨S1, L, h1, hL, h2⟩ := saveKey_runs hr hx hf hs first (hk k (by simp)) (hn k (by simp)) hg hi hcs
    have hkey := saveKey_ok hf (hk k (by simp)) (fun z0 z h q1 q2 => by
      obtain ⟨a1, -, a3, a4, -, -⟩ := interp_ok_safe hr hx hs q1 q2
      exact ⟨a1.names, a3, a4⟩) h1
    obtain ⟨ch, a, chE, z0, z, hd', y, r1, r2, r3, r4, r5, r6, r7, r8, r9, -, -⟩ := hkey.ex
    obtain ⟨n, -, st⟩ := sdf_step hr hx hs r6 r7 r8 r9
    rw [List.map_cons, List.nodup_cons] at hd
    obtain ⟨S2, h3⟩ := saveKeys_runs hr hx ks false S1 hkey.ok st.ok (fun k' q => hk k' (by simp [q])) hd.2 (fun k' q => by
      have h0 := hn k' (by simp [q])
      rw [child_eq (kids_eq r1)] at h0
      rw [child_eq (kids_eq r3), Dict.get?_set_ne]
      · exact h0
      · intro q'
        exact hd.1 (List.mem_map.2 ⟨k', q, q'.symm⟩)) (by rw [h2]; exact hrest L hL)
    refine ⟨S2, ?_⟩
    rw [saveKeys, h1]
    exact h3

theorem rootAttributes_ok (v : Versions) {s : Sdf} (h : Headed s) : ∃ a, rootAttributes v s = .ok a := by
  obtain ⟨h0, hs, e1, e2, d, e3⟩ := h.first
  obtain ⟨f, e4⟩ := Option.ne_none_iff_exists'.1 h.name
  obtain ⟨ep, e5⟩ := Option.ne_none_iff_exists'.1 e2
  unfold rootAttributes
  rw [e1]
  simp only [e4, e5, e3]
  exact ⟨_, rfl⟩

theorem save_runs {env : Env} {reg : List HKey} (hr : reg.Perm HKey.all) (hx : SchemaNames env) (v : Versions) {ks : List Ref} {s : Sdf} (hs : SdfOk s)
    (hk : ∀ k ∈ ks, Plain (p!"S" ++ k.text)) (hd : (ks.map entryName).Nodup) (hh : Headed s) (hc : CanSaveAll env reg ks s) :
    ∃ r, save env reg v ks s = (r, none) := by
  obtain ⟨a, ha⟩ := rootAttributes_ok v hh
  have h1 := addAttributes_eq (h := root) a (show H5.empty[0]? = some (.group [] []) from rfl)
  have ht : H5.empty.set root.id (.group [] (Dict.update [] a)) = [.group [] (Dict.update [] a)] := rfl
  have hf : FileOk [HNode.group [] (Dict.update [] a)] := by
    refine ⟨?_, ⟨[], _, rfl⟩, ?_⟩
    · intro i ch a hi
      match i with
      | 0 =>
        simp only [List.getElem?_cons_zero, Option.some.injEq, HNode.group.injEq] at hi
        obtain ⟨rfl, _⟩ := hi
        simp [Dict.keys]
      | i + 1 => simp at hi
    · intro i ch a hi n j hj
      match i with
      | 0 =>
        simp only [List.getElem?_cons_zero, Option.some.injEq, HNode.group.injEq] at hi
        obtain ⟨rfl, _⟩ := hi
        simp at hj
      | i + 1 => simp at hi
  obtain ⟨S', h2⟩ := saveKeys_runs hr hx ks true ⟨s, [HNode.group [] (Dict.update [] a)]⟩ hf hs hk hd
    (fun k _ => child_nil (kids_eq (a := Dict.update [] a) rfl) _) hc
  refine ⟨S', ?_⟩
  unfold save
  rw [ha]
  simp only [Res.eval, SState.run, h1]
  exact h2

end
end S2N
