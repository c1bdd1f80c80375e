import Verif.Model.Debug
import Verif.Spec.Debug
import Verif.Props.MultiViews
namespace Flatdata
open Spec

theorem commaSep_eq : ∀ l : List String, commaSep l = ", ".intercalate l
  | [] => by rw [String.intercalate_nil]; rfl
  | [x] => by rw [String.intercalate_singleton]; rfl
  | x :: y :: l => by rw [String.intercalate_cons_cons, ← commaSep_eq (y :: l)]; rfl

theorem lookup_eq {l : List (Int × String)} {v : Int} : ((l.find? fun x => x.1 = v).map Prod.snd) = l.lookup v := by
  induction l with
  | nil => rfl
  | cons a l ih =>
    obtain ⟨a, s⟩ := a
    rw [List.find?_cons, List.lookup_cons]
    by_cases h : a = v
    · subst h; simp
    · rw [show (decide (a = v)) = false by simpa using h, show (v == a) = false by simpa using fun h' => h h'.symm]
      exact ih

theorem showValue_eq (f : Field) (v : Int) : f.showValue v = shown f v := by
  unfold Field.showValue shown
  cases f.variants with
  | some l => simp only [lookup_eq]
  | none =>
    cases f.ty <;> simp

theorem valueOf_take {S : StructDef} {f : Field} (ok : FieldOK S.size f) (mem : Bytes) :
    valueOf f (mem.take S.size) = valueOf f mem := by
  have := ok.inside
  unfold valueOf
  congr 1
  apply fieldRaw_congr
  intro i hi
  rw [bitAt_take]
  simp [show f.off + i < 8 * S.size by omega]

theorem structText_take {S : StructDef} (wf : WF S) (mem : Bytes) : structText S (mem.take S.size) = structText S mem := by
  unfold structText
  congr 3
  apply List.map_congr_left
  intro f hf
  rw [valueOf_take (wf.field f hf)]

theorem enumsOK_take {S : StructDef} (wf : WF S) (mem : Bytes) : EnumsOK S (mem.take S.size) ↔ EnumsOK S mem := by
  constructor <;> intro h f hf l hl
  · rw [← valueOf_take (wf.field f hf)]; exact h f hf l hl
  · rw [valueOf_take (wf.field f hf)]; exact h f hf l hl

/-- Reading a field. -/
theorem get_valueOf {p : Profile} {e : Endian} {size : Nat} {f : Field} {mem : Bytes} (ok : FieldOK size f)
    (hs : NoStraddle f.off f.bits) (h1 : f.ty.signed = true → f.bits ≠ 1) (hm : size ≤ mem.length)
    (hv : ∀ l, f.variants = some l → valueOf f mem ∈ l.map Prod.fst) : f.get p e mem = .ok (valueOf f mem) := by
  have := ok.inside
  rw [get_eq ok.pos ok.le (by omega) hs, codeDecode_eq_decode h1 (fieldRaw_lt _ _ _)]
  unfold Field.transmute
  split
  · rfl
  · next l hl => exact if_pos (hv l hl)

theorem getAll_eq {p : Profile} {e : Endian} {mem : Bytes} : ∀ fs : List Field, (∀ f ∈ fs, f.get p e mem = .ok (valueOf f mem)) →
    getAll p e fs mem = .ok (fs.map fun f => valueOf f mem)
  | [], _ => rfl
  | f :: fs, h => by
    simp only [getAll, h f (by simp), getAll_eq fs fun g hg => h g (by simp [hg]), Out.ok_bind, List.map_cons]

theorem debug_eq {p : Profile} {e : Endian} {S : StructDef} {mem : Bytes} (ok : ShowOK S) (hm : S.size ≤ mem.length) (he : EnumsOK S mem) :
    S.debug p e mem = .ok (structText S mem) := by
  unfold StructDef.debug structText
  rw [getAll_eq S.fields fun f hf => get_valueOf (ok.wf.field f hf) (ok.straight f hf) (ok.signed f hf) hm (he f hf), Out.ok_bind, commaSep_eq]
  congr 4
  rw [List.zip_map_right, List.map_map]
  have : ∀ l : List Field, l.zip l = l.map fun x => (x, x) := by
    intro l; induction l with
    | nil => rfl
    | cons x l ih => simp [ih]
  rw [this, List.map_map]
  apply List.map_congr_left
  intro f _
  simp [showValue_eq]

theorem showAll_eq {f : Bytes → Out String} {g : Bytes → String} : ∀ l : List Bytes, (∀ x ∈ l, f x = .ok (g x)) →
    View.showAll f l = .ok (l.map g)
  | [], _ => rfl
  | x :: l, h => by simp only [View.showAll, h x (by simp), showAll_eq l fun y hy => h y (by simp [hy]), Out.ok_bind, List.map_cons]

theorem ellipsis (n : Nat) : (if 10 < n then "..." else "") = (if n ≤ 10 then "" else "...") := by
  by_cases h : n ≤ 10
  · rw [if_pos h, if_neg (by omega)]
  · rw [if_neg h, if_pos (by omega)]

theorem view_debug_eq {p : Profile} {e : Endian} {S : StructDef} {name : String} {data : Bytes} (ok : ShowOK S) (hs : 0 < S.size)
    (hd : data.length < 2 ^ 63) (he : ∀ x ∈ (elems S.size data).take 10, EnumsOK S x) :
    View.debugFormat p e S name data = .ok (viewText name S data) := by
  rw [C15_debug_view_partial p e S ok.wf ok.straight name data hs hd, showAll_eq (g := structText S)]
  · rw [Out.ok_bind]
    unfold viewText previewText
    rw [List.length_map, commaSep_eq, List.map_take, ellipsis]
  · intro x hx
    apply debug_eq ok _ (he x hx)
    have hx := List.mem_of_mem_take hx
    unfold elems at hx
    simp only [List.mem_map, List.mem_range] at hx
    obtain ⟨i, hi, rfl⟩ := hx
    have := (div_lt_iff (n := data.length) (i := i) hs).mp hi
    rw [Nat.add_mul, Nat.one_mul] at this
    simp; omega

theorem find_lookup {V : Variadic} {t : BitVec 8} {S : StructDef} (hV : (V.types.map Prod.fst).Nodup) (h : (t, S) ∈ V.types) :
    V.types.find? (fun y => y.1 = t) = some (t, S) ∧ V.types.lookup t = some S := by
  refine ⟨find_of_mem hV h, ?_⟩
  generalize V.types = l at *
  induction l with
  | nil => cases h
  | cons a l ih =>
    rw [List.lookup_cons]
    rw [List.map_cons, List.nodup_cons] at hV
    rcases List.mem_cons.mp h with rfl | h'
    · simp
    · have hne : ¬ t = a.1 := fun hta => hV.1 (hta ▸ List.mem_map_of_mem (f := Prod.fst) h')
      rw [show (t == a.1) = false by simpa using hne]
      exact ih hV.2 h'

theorem showContents_eq {p : Profile} {e : Endian} {V : Variadic} (hV : (V.types.map Prod.fst).Nodup) (hS : ∀ x ∈ V.types, ShowOK x.2) :
    ∀ xs : List (BitVec 8 × Bytes), ItemOK V xs → (∀ x ∈ xs, ∀ S, (x.1, S) ∈ V.types → EnumsOK S x.2) →
      showContents p e V xs = .ok (xs.map (elemText V))
  | [], _, _ => rfl
  | x :: xs, h, he => by
    obtain ⟨S, hm, h1, h2⟩ := h x (by simp)
    obtain ⟨t, S⟩ := S
    obtain ⟨y, b⟩ := x
    cases (show t = y from h1)
    obtain ⟨hf, hl⟩ := find_lookup hV hm
    have : showContent p e V (t, b) = .ok (elemText V (t, b)) := by
      unfold showContent elemText
      rw [hf, hl]
      exact debug_eq (hS _ hm) (Nat.le_of_eq (Eq.symm h2)) (he _ (by simp) _ hm)
    simp only [showContents, this, showContents_eq hV hS xs (fun y hy => h y (by simp [hy])) (fun y hy => he y (by simp [hy])),
      Out.ok_bind, List.map_cons]

theorem showNumbered_eq {p : Profile} {e : Endian} {V : Variadic} (hV : (V.types.map Prod.fst).Nodup) (hS : ∀ x ∈ V.types, ShowOK x.2) :
    ∀ (xss : List (List (BitVec 8 × Bytes))) (i : Nat), (∀ xs ∈ xss, ItemOK V xs) →
      (∀ xs ∈ xss, ∀ x ∈ xs, ∀ S, (x.1, S) ∈ V.types → EnumsOK S x.2) → showNumbered p e V i xss = .ok (numbered V i xss)
  | [], _, _, _ => rfl
  | xs :: xss, i, h, he => by
    simp only [showNumbered, showContents_eq hV hS xs (h xs (by simp)) (he xs (by simp)),
      showNumbered_eq hV hS xss (i + 1) (fun y hy => h y (by simp [hy])) (fun y hy => he y (by simp [hy])), Out.ok_bind, numbered, itemText,
      commaSep_eq]
    congr 2
    simp only [String.append_assoc]
    rfl

theorem length_numbered (V : Variadic) : ∀ (xss : List (List (BitVec 8 × Bytes))) (i : Nat), (numbered V i xss).length = xss.length
  | [], _ => rfl
  | _ :: xss, i => by simp [numbered, length_numbered V xss]

theorem take_numbered (V : Variadic) : ∀ (n : Nat) (xss : List (List (BitVec 8 × Bytes))) (i : Nat),
    (numbered V i xss).take n = numbered V i (xss.take n)
  | 0, xss, _ => by simp [numbered]
  | _ + 1, [], _ => rfl
  | n + 1, xs :: xss, i => by simp [numbered, take_numbered V n xss]

theorem multi_debug_eq {p : Profile} {e : Endian} {V : Variadic} {name : String} {v : MultiView} (hV : (V.types.map Prod.fst).Nodup)
    (hS : ∀ x ∈ V.types, ShowOK x.2) (hv : MultiOK V v) {xss : List (List (BitVec 8 × Bytes))} (hit : items V v = xss.map encodeItem)
    (hok : ∀ xs ∈ xss, ItemOK V xs) (he : ∀ xs ∈ xss.take 10, ∀ x ∈ xs, ∀ S, (x.1, S) ∈ V.types → EnumsOK S x.2) :
    MultiView.debugFormat p e V name v = .ok (multiText name V xss) := by
  rw [C15_debug_multi_partial p e V ⟨hv.def_ok, hV⟩ (fun x hx => ⟨(hS x hx).wf, (hS x hx).straight⟩) name v hv xss hit hok,
    showNumbered_eq hV hS _ 0 (fun xs h => hok xs (List.mem_of_mem_take h)) he, Out.ok_bind]
  unfold multiText previewText
  rw [length_numbered, commaSep_eq, take_numbered, ellipsis]

/-- What a multi array view shows determines the bytes of its items. -/
theorem Spec.Shows.items {V : Variadic} {v : MultiView} {xss : List (List (BitVec 8 × Bytes))} (h : Shows V v xss) :
    Spec.items V v = xss.map encodeItem ∧ ∀ xs ∈ xss, ItemOK V xs := by
  obtain ⟨ok, h⟩ := h
  obtain ⟨hl, h⟩ := h .debug .little
  rw [multi_len ok, Out.ok.injEq] at hl
  have key : ∀ i (hi : i < xss.length), (Spec.items V v)[i]'(by omega) = encodeItem xss[i] ∧ ItemOK V xss[i] := by
    intro i hi
    obtain ⟨b, l, h1, h2, h3⟩ := h i hi
    rw [multi_at ok (by omega), Out.ok.injEq] at h1
    obtain ⟨g1, g2⟩ := itemCollect_ok b.length b (Nat.le_refl _) l h2
    rw [h1, ← h3]
    refine ⟨g1.symm, ?_⟩
    intro x hx
    obtain ⟨y, hy, rfl⟩ := List.mem_map.mp hx
    obtain ⟨k1, k2, _⟩ := g2 y hy
    exact ⟨_, k1, rfl, by simp [Elem.content, Nat.min_eq_left k2]⟩
  constructor
  · apply List.ext_getElem (by simpa using hl)
    intro i h1 h2
    simp only [List.length_map] at h2
    rw [(key i h2).1, List.getElem_map]
  · intro xs hx
    obtain ⟨i, hi, rfl⟩ := List.mem_iff_getElem.mp hx
    exact (key i hi).2

/-! ## archives -/

section
variable {B : Backend} {w : B.W} {p : Profile} {e : Endian} {addr : Slice B.Base → String}

theorem resDebug_text {r : ResDecl} {x : Opened B.Base} {c : Option Payload} (h : Yields B w r x c)
    (hc : AllShowable [r] [c]) : ∃ s, resDebug B w p e addr r x = .ok s ∧ ResText r s c := by
  cases c with
  | none =>
    replace hc : r.optional = true := hc.1
    refine ⟨"None", ?_, hc, rfl⟩
    unfold resDebug
    unfold Yields at h
    dsimp only at h
    cases ht : r.type with
    | multi V i => rw [ht] at h; dsimp only at h ⊢; rw [h, Out.ok_bind]; simp only [formatSome, Out.ok_bind, hc, showOpt]
    | struct S => rw [ht] at h; dsimp only at h ⊢; rw [h, Out.ok_bind]; simp only [formatSome, Out.ok_bind, hc, showOpt]
    | vector S => rw [ht] at h; dsimp only at h ⊢; rw [h, Out.ok_bind]; simp only [formatSome, Out.ok_bind, hc, showOpt]
    | raw =>
      rw [ht] at h
      dsimp only at h ⊢
      have : x.desc B = none := by
        cases x with
        | two => rfl
        | one s =>
          cases s with
          | none => rfl
          | some s =>
            change (B.deref w s).bind _ = _ at h
            cases hd : B.deref w s <;> rw [hd] at h <;> cases h
      simp only [this, hc, Option.map_none, showOpt]
  | some y =>
    have opt : ∀ t, ∃ s, showOpt r.optional (some t) = .ok s ∧ s = optText r.optional t := by
      intro t
      unfold optText
      cases r.optional
      · exact ⟨_, rfl, rfl⟩
      · exact ⟨_, rfl, rfl⟩
    cases y with
    | bytes b =>
      change x.bytes B w = .ok (some b) at h
      replace hc : Showable r (.bytes b) := hc.1
      unfold Showable at hc
      unfold resDebug ResText
      dsimp only at hc ⊢
      split at hc
      · next S ht =>
        rw [ht]
        dsimp only
        simp only [h, Out.ok_bind, formatSome, debug_eq hc.1 hc.2.1 hc.2.2]
        exact opt _
      · next S ht =>
        rw [ht]
        dsimp only
        simp only [h, Out.ok_bind, formatSome, view_debug_eq hc.1 hc.2.1 hc.2.2.1 (fun x hx => hc.2.2.2 x (List.mem_of_mem_take hx))]
        exact opt _
      · next ht =>
        rw [ht]
        dsimp only
        cases x with
        | two => cases h
        | one s =>
          cases s with
          | none => cases h
          | some s =>
            obtain ⟨t, h1, h2⟩ := opt (descDebug B addr s)
            refine ⟨t, h1, addr s, ?_⟩
            rw [h2]
            have : s.len = b.length := by
              change (B.deref w s).bind _ = _ at h
              cases hd : B.deref w s with
              | ok d =>
                rw [hd] at h
                cases h
                unfold Backend.deref at hd
                split at hd
                · cases hd; simp; omega
                · cases hd
              | panic => rw [hd] at h; cases h
              | ub => rw [hd] at h; cases h
            unfold descDebug
            rw [this]
      · exact hc.elim
    | items xss =>
      obtain ⟨V, index, v, ht, hm, hsh⟩ := h
      replace hc : Showable r (.items xss) := hc.1
      unfold Showable at hc
      unfold resDebug ResText
      dsimp only at hc ⊢
      rw [ht] at hc ⊢
      dsimp only at hc ⊢
      obtain ⟨h1, h2⟩ := hsh.items
      simp only [hm, Out.ok_bind, formatSome,
        multi_debug_eq hc.1 hc.2.1 hsh.1 h1 h2 (fun xs hx => hc.2.2 xs (List.mem_of_mem_take hx))]
      exact opt _

theorem allDebug_text : ∀ {rs : List ResDecl} {xs : List (Opened B.Base)} {cs : List (Option Payload)}, AllYield B w rs xs cs →
    AllShowable rs cs → ∃ ts, allDebug B w p e addr rs xs = .ok ts ∧ AllText rs ts cs
  | [], [], [], _, _ => ⟨[], rfl, trivial⟩
  | r :: rs, x :: xs, c :: cs, h, hc => by
    have hc' : AllShowable [r] [c] ∧ AllShowable rs cs := by
      cases c <;> exact ⟨⟨hc.1, trivial⟩, hc.2⟩
    obtain ⟨s, h1, h2⟩ := resDebug_text (p := p) (e := e) (addr := addr) h.1 hc'.1
    obtain ⟨ts, h3, h4⟩ := allDebug_text h.2 hc'.2
    exact ⟨(r.name ++ ": " ++ s) :: ts, by simp only [allDebug, h1, h3, Out.ok_bind], ⟨s, rfl, h2⟩, h4⟩
  | [], _ :: _, _, h, _ => h.elim
  | [], [], _ :: _, h, _ => h.elim
  | _ :: _, [], _, h, _ => h.elim
  | _ :: _, _ :: _, [], h, _ => h.elim

mutual
theorem archiveDebug_text : ∀ {D : ArchiveDef} {a : Archive B.Base} {c : Content}, ArchiveYields B w D a c → ContentShowable D c →
    ∃ t, archiveDebug B w p e addr D a = .ok t ∧ ArchiveText (fun l => commaSep ("" :: l)) D t c
  | .mk name schema rs subs, .mk xs ss, .mk cs ts, h, hc => by
    obtain ⟨t, h1, h2⟩ := allDebug_text (p := p) (e := e) (addr := addr) h.1 hc.1
    obtain ⟨u, h3, h4⟩ := subsDebug_text h.2 hc.2
    refine ⟨name ++ " { " ++ commaSep ("" :: (t ++ u)) ++ " }", ?_, t, u, h2, h4, rfl⟩
    simp only [archiveDebug, h1, h3, Out.ok_bind, commaSep_eq]

theorem subsDebug_text : ∀ {D : SubDefs} {a : SubArchives B.Base} {c : SubContents}, SubsYield B w D a c → SubsShowable D c →
    ∃ t, subsDebug B w p e addr D a = .ok t ∧ SubsText (fun l => commaSep ("" :: l)) D t c
  | .nil, .nil, .nil, _, _ => ⟨[], rfl, trivial⟩
  | .cons name optional D rest, .cons a ss, .cons c ts, h, hc => by
    obtain ⟨u, h3, h4⟩ := subsDebug_text (D := rest) (a := ss) (c := ts) h.2 hc.2
    cases a with
    | none =>
      cases c with
      | some c => exact h.1.elim
      | none =>
        have ho : optional = true := hc.1
        subst ho
        refine ⟨(name ++ ": None") :: u, ?_, ⟨rfl, rfl⟩, h4⟩
        simp only [subsDebug, h3, Out.ok_bind, showOpt, String.append_assoc]
        rfl
    | some a =>
      cases c with
      | none => exact h.1.elim
      | some c =>
        obtain ⟨t, h1, h2⟩ := archiveDebug_text (D := D) (a := a) (c := c) h.1 hc.1
        cases optional with
        | false => exact ⟨(name ++ ": " ++ t) :: u, by simp only [subsDebug, h1, h3, Out.ok_bind, showOpt], ⟨t, rfl, h2⟩, h4⟩
        | true =>
          exact ⟨(name ++ ": " ++ ("Some(" ++ t ++ ")")) :: u, by simp only [subsDebug, h1, h3, Out.ok_bind, showOpt], ⟨t, rfl, h2⟩, h4⟩
  | .nil, .cons _ _, _, h, _ => by unfold SubsYield at h; exact h.elim
  | .nil, .nil, .cons _ _, h, _ => by unfold SubsYield at h; exact h.elim
  | .cons _ _ _ _, .nil, _, h, _ => by unfold SubsYield at h; exact h.elim
  | .cons _ _ _ _, .cons _ _, .nil, h, _ => by unfold SubsYield at h; exact h.elim
end

end
end Flatdata
