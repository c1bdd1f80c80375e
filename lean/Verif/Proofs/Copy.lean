import Verif.Spec.Copy
import Verif.Proofs.ProgramRun
import Verif.Proofs.Build
import Verif.Props.MultiViews
import Verif.Props.Structs
/-!
# Copying with `fill_from`
-/
namespace Flatdata
open Spec
variable {p : Profile} {e : Endian}

theorem bitAt_zeros (n k : Nat) : bitAt (zeros n) k = false := by
  unfold bitAt zeros
  by_cases h : k / 8 < n
  · rw [List.getElem?_eq_getElem (by simpa using h)]; simp
  · rw [List.getElem?_eq_none (by simp; omega)]

/-- `fill_from` into zeroed memory of at least the size of the struct. -/
theorem fill_zeros {S : StructDef} (ok : CopyOK S) {m : Bytes} (hm : S.size ≤ m.length) (ht : Tidy p e S (m.take S.size)) {n : Nat}
    (hn : S.size ≤ n) : S.fillFrom p e (zeros n) m = .ok (m.take S.size ++ zeros (n - S.size)) := by
  have hb : ∀ k, k < 8 * S.size → bitAt (m.take S.size) k = bitAt m k := by
    intro k hk; rw [bitAt_take]; simp [hk]
  have := C40_struct_copy_partial p e S ok.wf ok.straight ok.bool (zeros n) m (by simpa [zeros] using hn) hm
    (fun f hf => by
      obtain ⟨v, hv⟩ := ht.1 f hf
      have fo := ok.wf.field f hf
      have hin := fo.inside
      refine ⟨v, ?_⟩
      rw [← hv]
      refine get_congr fo.pos fo.le (by omega) (by simp; omega) (ok.straight f hf) fun k _ hk => (hb k (by omega)).symm)
    (fun k hk hu => by rw [bitAt_zeros, ← hb k hk]; exact (ht.2 k hk hu).symm)
  rw [this]
  simp [zeros]

theorem fill_element {S : StructDef} (ok : CopyOK S) {m : Bytes} (hm : S.size ≤ m.length) (ht : Tidy p e S (m.take S.size)) :
    runHandle p e S [.fill m] (zeros S.size) = .ok (m.take S.size) := by
  have := fill_zeros ok hm ht (Nat.le_refl _)
  simp only [Nat.sub_self, zeros, List.replicate_zero, List.append_nil] at this
  simp only [runHandle, HandleOp.run]
  rw [zeros, this]
  rfl

theorem Spec.Elements.of_map {S : StructDef} {α : Type} (f : α → List HandleOp) (g : α → Bytes) :
    ∀ (l : List α), (∀ a ∈ l, runHandle p e S (f a) (zeros S.size) = .ok (g a)) → Elements p e S (l.map f) (l.map g)
  | [], _ => trivial
  | a :: l, h => ⟨h a (by simp), Elements.of_map f g l fun b hb => h b (by simp [hb])⟩

theorem flatten_elems {size : Nat} (hs : 0 < size) {data : Bytes} (h : data.length % size = 0) : (elems size data).flatten = data := by
  obtain ⟨n, hn⟩ : ∃ n, data.length = n * size := ⟨data.length / size, by rw [Nat.div_mul_cancel (Nat.dvd_of_mod_eq_zero h)]⟩
  clear h
  induction n generalizing data with
  | zero =>
    have : data = [] := List.length_eq_zero_iff.mp (by omega)
    subst this
    simp [elems]
  | succ n ih =>
    have hlen : data.length / size = n + 1 := by rw [hn, Nat.mul_div_cancel _ hs]
    have h1 : elems size data = data.take size :: elems size (data.drop size) := by
      have := elems_drop hs data 1
      rw [Nat.one_mul] at this
      rw [this]
      apply List.ext_getElem?
      intro i
      cases i with
      | zero => rw [getElem?_elems, if_pos (by omega)]; simp
      | succ i => rw [List.getElem?_cons_succ, List.getElem?_drop, Nat.add_comm]
    have hge : size ≤ data.length := by rw [hn, Nat.succ_mul]; omega
    rw [h1, List.flatten_cons, ih (by rw [List.length_drop, hn, Nat.succ_mul]; omega), List.take_append_drop]

/-- Copying the elements of a view yields its elements. -/
theorem copyElements_spec {S : StructDef} (ok : CopyOK S) (hs : 0 < S.size) {b : Bytes} (hl : b.length + 8 < 2 ^ 63)
    (ht : ∀ x ∈ elems S.size b, Tidy p e S x) :
    ∃ es, copyElements p S.size b = .ok es ∧ Elements p e S es (elems S.size b) ∧ es.length = b.length / S.size := by
  unfold copyElements
  rw [takeCollect_spec hs _ _ (by unfold usizeMod; omega), Nat.min_eq_right (Nat.div_le_self _ _), Out.ok_bind, List.map_map]
  refine ⟨_, rfl, ?_, by simp⟩
  refine Elements.of_map _ _ _ fun i hi => ?_
  rw [List.mem_range] at hi
  have hlt : i * S.size + S.size ≤ b.length := by
    have := Nat.mul_le_mul_right S.size (Nat.succ_le_of_lt hi)
    rw [Nat.succ_mul] at this
    exact Nat.le_trans this (Nat.div_mul_le_self _ _)
  refine fill_element ok (by rw [List.length_drop]; omega) (ht _ ?_)
  unfold elems
  exact List.mem_map.mpr ⟨i, List.mem_range.mpr hi, rfl⟩

/-- The items of a view are the encodings of what it shows. -/
theorem Spec.Shows.items {V : Variadic} {v : MultiView} {xss : List (List (BitVec 8 × Bytes))} (h : Shows V v xss) :
    items V v = xss.map encodeItem ∧ ∀ xs ∈ xss, ItemOK V xs := by
  obtain ⟨mo, h⟩ := h
  obtain ⟨h1, h2⟩ := h .debug .little
  rw [multi_len mo] at h1
  have hlen : (Spec.items V v).length = xss.length := Out.ok.inj h1
  have hi : ∀ i (h : i < xss.length), ∃ l, MultiView.itemCollect V ((Spec.items V v)[i]'(by omega)) = .ok l ∧ l.map Elem.content = xss[i] := by
    intro i hlt
    obtain ⟨b, l, g1, g2, g3⟩ := h2 i hlt
    rw [multi_at mo (by omega)] at g1
    cases g1
    exact ⟨l, g2, g3⟩
  constructor
  · apply List.ext_getElem (by simp [hlen])
    intro i h1 h2
    obtain ⟨l, g1, g2⟩ := hi i (by omega)
    rw [List.getElem_map, ← g2]
    exact (((C29_iteration V _).2.2 l g1).1).symm
  · intro xs hxs
    obtain ⟨i, hlt, rfl⟩ := List.getElem_of_mem hxs
    obtain ⟨l, g1, g2⟩ := hi i hlt
    rw [← g2]
    intro x hx
    obtain ⟨el, he, rfl⟩ := List.mem_map.mp hx
    obtain ⟨k1, k2, _⟩ := ((C29_iteration V _).2.2 l g1).2 el he
    exact ⟨(el.type, el.struct), k1, rfl, by simp [Elem.content, k2]⟩

theorem Spec.Contents.of_elems : ∀ (l : List Elem),
    (∀ el ∈ l, runHandle p e el.struct [.fill el.mem] (zeros el.struct.size) = .ok (el.mem.take el.struct.size)) →
    Contents p e (l.map fun el => ⟨el.type, el.struct, [.fill el.mem]⟩) (l.map Elem.content)
  | [], _ => trivial
  | el :: l, h => ⟨rfl, h el (by simp), Contents.of_elems l fun x hx => h x (by simp [hx])⟩

theorem Spec.AllContents.of_items {α : Type} : ∀ (l : List (α × List Elem)),
    (∀ y ∈ l, ∀ el ∈ y.2, runHandle p e el.struct [.fill el.mem] (zeros el.struct.size) = .ok (el.mem.take el.struct.size)) →
    AllContents p e (l.map fun y => y.2.map fun el => ⟨el.type, el.struct, [.fill el.mem]⟩) (l.map fun y => y.2.map Elem.content)
  | [], _ => trivial
  | y :: l, h => ⟨Contents.of_elems y.2 (h y (by simp)), AllContents.of_items l fun x hx => h x (by simp [hx])⟩

/-- Copying the items of a view yields its items. -/
theorem copyItems_spec {V : Variadic} (ok : VariadicOK V) (hok : ∀ x ∈ V.types, CopyOK x.2) {v : MultiView}
    {xss : List (List (BitVec 8 × Bytes))} (h : Shows V v xss)
    (ht : ∀ xs ∈ xss, ∀ x ∈ xs, ∀ S, (x.1, S) ∈ V.types → Tidy p e S x.2) :
    ∃ its, copyItems p e V v = .ok its ∧ AllContents p e its xss ∧ (∀ as ∈ its, ∀ a ∈ as, (a.type, a.struct) ∈ V.types) ∧
      its.length = xss.length := by
  obtain ⟨h1, h2⟩ := h.items
  obtain ⟨l, g1, g2, g3, g4⟩ := takeCollect_items (p := p) (e := e) ok.distinct v.index.length 0 v xss h.1 h1 h2
  have hn : xss.length ≤ v.index.length := by
    have : (items V v).length = xss.length := by rw [h1, List.length_map]
    rw [length_items, length_offsets] at this
    have := Nat.div_le_self v.index.length V.indexSize
    omega
  rw [List.take_of_length_le hn] at g2
  unfold copyItems
  rw [g1, Out.ok_bind]
  have hc : ∀ y ∈ l, ∀ el ∈ y.2, runHandle p e el.struct [.fill el.mem] (zeros el.struct.size) = .ok (el.mem.take el.struct.size) := by
    intro y hy el he
    obtain ⟨k1, k2⟩ := g4 y hy el he
    refine fill_element (hok _ k1) k2 ?_
    have hm : Elem.content el ∈ y.2.map Elem.content := List.mem_map.mpr ⟨el, he, rfl⟩
    exact ht (y.2.map Elem.content) (by rw [← g2]; exact List.mem_map.mpr ⟨y, hy, rfl⟩) _ hm el.struct k1
  refine ⟨_, rfl, ?_, ?_, ?_⟩
  · rw [← g2]; exact AllContents.of_items l hc
  · intro as ha a h
    obtain ⟨y, hy, rfl⟩ := List.mem_map.mp ha
    obtain ⟨el, he, rfl⟩ := List.mem_map.mp h
    exact (g4 y hy el he).1
  · have := congrArg List.length g2
    simpa using this


/-! ## Copying archives -/

theorem copyRes_none {B : Backend} {w : B.W} {r : ResDecl} {x : Opened B.Base} (h : Yields B w r x none) : copyRes B w p e r x = .ok none := by
  change match r.type with | .multi _ _ => x.multi B w = .ok none | _ => x.bytes B w = .ok none at h
  unfold copyRes
  cases ht : r.type with
  | multi V i => rw [ht] at h; dsimp only at h ⊢; rw [h]; rfl
  | struct S => rw [ht] at h; dsimp only at h ⊢; rw [h]; rfl
  | vector S => rw [ht] at h; dsimp only at h ⊢; rw [h]; rfl
  | raw => rw [ht] at h; dsimp only at h ⊢; rw [h]; rfl

theorem copyRes_some {B : Backend} {w : B.W} {r : ResDecl} {x : Opened B.Base} {c : Payload} (h : Yields B w r x (some c))
    (hc : Copyable p e r c) : ∃ s, copyRes B w p e r x = .ok (some s) ∧ Gives p e r s c := by
  cases c with
  | bytes b =>
    change x.bytes B w = .ok (some b) at h
    change match r.type with | .struct S => _ | .vector S => _ | .raw => _ | .multi _ _ => _ at hc
    unfold copyRes
    cases ht : r.type with
    | multi V i => rw [ht] at hc; exact hc.elim
    | struct S =>
      rw [ht] at hc
      obtain ⟨ok, h63, hl, td⟩ := hc
      dsimp only
      have htk : b.take S.size = b := List.take_of_length_le (by omega)
      have hf := fill_zeros ok (m := b) (by omega) (by rw [htk]; exact td) (n := S.size + paddingSize) (by omega)
      rw [h, Out.ok_bind]
      dsimp only
      rw [show StructBuf.new S = zeros (S.size + paddingSize) from rfl, hf]
      refine ⟨_, rfl, S, ht, h63, by rw [htk, List.length_append]; omega, ?_⟩
      rw [htk, List.take_append_of_le_length (by omega), List.take_of_length_le (by omega)]
    | vector S =>
      rw [ht] at hc
      obtain ⟨ok, hs, hl, hm, td⟩ := hc
      dsimp only
      obtain ⟨es, g1, g2, g3⟩ := copyElements_spec ok hs hl td
      rw [h, Out.ok_bind]
      dsimp only
      rw [g1]
      refine ⟨_, rfl, S, _, ht, hs, g2, ?_, (flatten_elems hs hm).symm⟩
      rw [g3, Nat.div_mul_cancel (Nat.dvd_of_mod_eq_zero hm)]; exact hl
    | raw =>
      rw [ht] at hc
      dsimp only
      rw [h]
      exact ⟨_, rfl, .inr ht, hc, rfl⟩
  | items xss =>
    obtain ⟨V, index, v, ht, hx, hsh⟩ := h
    change match r.type with | .multi V index => _ | _ => _ at hc
    rw [ht] at hc
    obtain ⟨hi, vo, co, td, b1, b2, b3⟩ := hc
    unfold copyRes
    rw [ht]
    dsimp only
    obtain ⟨its, g1, g2, g3, g4⟩ := copyItems_spec vo co hsh fun xs hxs => (td xs hxs).2
    rw [hx, Out.ok_bind]
    dsimp only
    rw [g1]
    rw [g2.length.1] at b2 b3
    exact ⟨_, rfl, V, by rw [ht, hi], vo, g2, g3, by rw [g4]; exact b1, b2, b3⟩

theorem copyAll_spec {B : Backend} {w : B.W} : ∀ {rs : List ResDecl} {xs : List (Opened B.Base)} {cs : List (Option Payload)} (rest : Prog),
    AllYield B w rs xs cs → AllCopyable p e rs cs → rs.Nodup →
    ∃ prog ws, copyAll B w p e rs xs rest = .ok prog ∧ prog.writes = ws ++ rest.writes ∧ prog.builds = rest.builds ∧
      (ws.map Prod.fst).Sublist rs ∧ ∀ prog' : Prog, (∀ x ∈ ws, x ∈ prog'.writes) → (∀ x ∈ prog'.writes, x.1 ∈ rs → x ∈ ws) →
        ResPrepare p e prog' rs cs
  | [], [], [], rest, _, _, _ => ⟨rest, [], rfl, rfl, rfl, .slnil, fun _ _ _ => trivial⟩
  | r :: rs, x :: xs, c :: cs, rest, hy, hc, hn => by
    obtain ⟨hr, hn'⟩ := List.nodup_cons.mp hn
    cases c with
    | none =>
      obtain ⟨prog, ws, h1, h2, h3, h4, h5⟩ := copyAll_spec rest hy.2 hc.2 hn'
      refine ⟨prog, ws, ?_, h2, h3, h4.cons _, fun prog' a b => ⟨⟨hc.1, fun s hs => ?_⟩, h5 prog' a fun x hx hm => b x hx (.tail _ hm)⟩⟩
      · rw [copyAll, copyRes_none hy.1, Out.ok_bind, h1]; rfl
      · exact hr (h4.subset (List.mem_map.mpr ⟨_, b _ hs (.head _), rfl⟩))
    | some c =>
      obtain ⟨prog, ws, h1, h2, h3, h4, h5⟩ := copyAll_spec rest hy.2 hc.2 hn'
      obtain ⟨s, g1, g2⟩ := copyRes_some hy.1 hc.1
      refine ⟨.res r s prog, (r, s) :: ws, ?_, ?_, h3, h4.cons_cons _, fun prog' a b => ⟨⟨s, a _ (.head _), g2⟩,
        h5 prog' (fun x hx => a x (.tail _ hx)) fun x hx hm => ?_⟩⟩
      · rw [copyAll, g1, Out.ok_bind, h1]; rfl
      · rw [Prog.writes, h2]; rfl
      · rcases List.mem_cons.mp (b x hx (.tail _ hm)) with rfl | h
        · exact absurd hm hr
        · exact h
  | [], _ :: _, _, _, h, _, _ => h.elim
  | [], [], _ :: _, _, h, _, _ => h.elim
  | _ :: _, [], _, _, h, _, _ => h.elim
  | _ :: _, _ :: _, [], _, h, _, _ => h.elim

theorem names_nodup {name schema : String} {rs : List ResDecl} {subs : SubDefs} (h : Separate (.mk name schema rs subs)) :
    (rs.map ResDecl.name).Nodup ∧ ((SubDefs.entries subs).map Prod.fst).Nodup := by
  have h2 := h.2.1
  obtain ⟨h3, h4, _⟩ := List.nodup_append.mp h2
  refine ⟨?_, h4⟩
  unfold files at h3
  have h5 := (List.nodup_cons.mp (List.nodup_cons.mp h3).2).2
  change (rs.flatMap _).Nodup at h5
  rw [List.nodup_flatMap] at h5
  rw [List.Nodup, List.pairwise_map]
  refine h5.2.imp fun {a b} hab heq => ?_
  have hmem : ∀ r : ResDecl, r.name ∈ (parts r).flatMap fun q => [q.1, q.1 ++ ".schema"] := by
    intro r
    unfold parts
    cases r.type <;> simp
  exact hab (hmem a) (heq ▸ hmem b)

mutual
theorem copyProg_spec {B : Backend} {w : B.W} : ∀ {D : ArchiveDef} {a : Archive B.Base} {c : Content}, Separate D → ArchiveYields B w D a c →
    ContentCopyable p e D c → ∃ prog, copyProg B w p e D a = .ok prog ∧ Prepares p e D prog c
  | .mk name schema rs subs, .mk xs ss, .mk cs ts, hs, hy, hc => by
    obtain ⟨n1, n2⟩ := names_nodup hs
    obtain ⟨t, h1, h2, h3, h4⟩ := copySubs_spec (subs := subs) (ss := ss) (ts := ts) hs.2.2 n2 hy.2 hc.2
    obtain ⟨prog, ws, g1, g2, g3, g4, g5⟩ := copyAll_spec t hy.1 hc.1 (List.Nodup.of_map _ n1)
    rw [h2, List.append_nil] at g2
    refine ⟨prog, ?_, ?_, ?_, ?_, ?_, ?_, ?_⟩
    · rw [copyProg, h1, Out.ok_bind, g1]
    · rw [g2, show (ws.map fun x => x.1.name) = (ws.map Prod.fst).map ResDecl.name by rw [List.map_map]; rfl]
      exact n1.sublist (g4.map _)
    · rw [g3]
      have := (h3.map Prod.fst)
      rw [List.map_map] at this
      exact n2.sublist this
    · rw [g2]; exact fun x hx => g4.subset (List.mem_map.mpr ⟨x, hx, rfl⟩)
    · rw [g3]; exact fun x hx => h3.subset (List.mem_map.mpr ⟨x, hx, rfl⟩)
    · exact g5 prog (by rw [g2]; exact fun _ h => h) (by rw [g2]; exact fun _ h _ => h)
    · exact h4 prog (by rw [g3]; exact fun _ h => h) (by rw [g3]; exact fun _ h _ => h)

theorem copySubs_spec {B : Backend} {w : B.W} : ∀ {subs : SubDefs} {ss : SubArchives B.Base} {ts : SubContents}, SubsSeparate subs →
    ((SubDefs.entries subs).map Prod.fst).Nodup → SubsYield B w subs ss ts → SubsCopyable p e subs ts →
    ∃ prog : Prog, copySubs B w p e subs ss = .ok prog ∧ prog.writes = [] ∧
      (prog.builds.map fun x => (x.1, x.2.1)).Sublist (SubDefs.entries subs) ∧
      ∀ prog' : Prog, (∀ x ∈ prog.builds, x ∈ prog'.builds) →
        (∀ x ∈ prog'.builds, x.1 ∈ (SubDefs.entries subs).map Prod.fst → x ∈ prog.builds) → SubsPrepare p e subs prog' ts
  | .nil, .nil, .nil, _, _, _, _ => ⟨.done, rfl, rfl, .slnil, fun _ _ _ => trivial⟩
  | .cons name optional D rest, .cons a ss, .cons c ts, hs, hn, hy, hc => by
    obtain ⟨hr, hn'⟩ := List.nodup_cons.mp (show (name :: (SubDefs.entries rest).map Prod.fst).Nodup from hn)
    obtain ⟨t, h1, h2, h3, h4⟩ := copySubs_spec (subs := rest) (ss := ss) (ts := ts) hs.2 hn' hy.2 hc.2
    cases c with
    | none =>
      cases a with
      | some a => exact hy.1.elim
      | none =>
        refine ⟨t, ?_, h2, h3.cons _, fun prog' a b => ⟨⟨hc.1, fun D inner hm => ?_⟩, h4 prog' a fun x hx hm => b x hx (.tail _ hm)⟩⟩
        · rw [copySubs, h1]; rfl
        · have := h3.subset (List.mem_map.mpr ⟨_, b _ hm (.head _), rfl⟩)
          exact hr (List.mem_map.mpr ⟨_, this, rfl⟩)
    | some c =>
      cases a with
      | none => exact hy.1.elim
      | some a =>
        obtain ⟨inner, k1, k2⟩ := copyProg_spec (D := D) (a := a) (c := c) hs.1 hy.1 hc.1
        refine ⟨.sub name D inner t, ?_, h2, h3.cons_cons _, fun prog' a b => ⟨⟨inner, a _ (.head _), k2⟩,
          h4 prog' (fun x hx => a x (.tail _ hx)) fun x hx hm => ?_⟩⟩
        · rw [copySubs, h1, Out.ok_bind]; dsimp only; rw [k1]; rfl
        · rcases List.mem_cons.mp (b x hx (.tail _ hm)) with rfl | h
          · exact absurd hm hr
          · exact h
  | .nil, .cons _ _, _, _, _, h, _ => h.elim
  | .nil, .nil, .cons _ _, _, _, h, _ => h.elim
  | .cons _ _ _ _, .nil, _, _, _, h, _ => h.elim
  | .cons _ _ _ _, .cons _ _, .nil, _, _, h, _ => h.elim
end

end Flatdata
