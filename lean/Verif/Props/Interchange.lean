import Verif.Props.Storage
import Verif.Spec.History
/-!
# Property C38: the two storages are interchangeable

Both storages simulate the same abstract storage: a map from names to bytes. They differ only in what is empty: files without content cannot be
mapped.
-/
namespace Flatdata
open Spec

/-- What the simulation needs to know about a backend, in the states `G`. -/
structure Host {B : Backend} (L : Laws B) (o : B.Obj) (G : B.W → Prop) : Prop where
  inj : ∀ {n m}, PlainName n → PlainName m → n ≠ m → L.loc o n ≠ L.loc o m
  inv : ∀ {w}, G w → L.inv w
  exists_ : ∀ {w n}, G w → L.noFault w → PlainName n →
    ∃ w', B.existsRes o n w = (.ok (L.medium w (L.loc o n)).isSome, w') ∧ G w' ∧ L.noFault w' ∧ ∀ l, Keeps L w w' l
  missing : ∀ {w n}, G w → L.noFault w → PlainName n → L.medium w (L.loc o n) = none → L.cache w o n = none →
    ∃ w', B.readResource o n w = (.err .notFound, w') ∧ ∀ l, Keeps L w w' l
  blank : ∀ {w n}, G w → L.noFault w → PlainName n → L.medium w (L.loc o n) = some [] → L.cache w o n = none → ¬ L.readable [] →
    ∃ w', B.readResource o n w = (.err .invalidInput, w') ∧ ∀ l, Keeps L w w' l
  create : ∀ {w n}, G w → L.noFault w → PlainName n → ∃ s w', B.createOutputStream o n w = (.ok s, w') ∧ G w'
  read : ∀ {w n}, G w → PlainName n → G (B.readResource o n w).2
  write : ∀ {w s b}, G w → L.live w s → G (B.writeAll s b w).2

/-- The storage object holds exactly the resources `v`, and what it has read is still current. -/
structure Sim {B : Backend} (L : Laws B) (o : B.Obj) (G : B.W → Prop) (v : String → Option Bytes) (w : B.W) : Prop where
  good : G w
  noFault : L.noFault w
  medium : ∀ n, PlainName n → L.medium w (L.loc o n) = v n
  cache : ∀ n s, PlainName n → L.cache w o n = some s → ∃ d, v n = some d ∧ B.deref w s = .ok d
  blank : ∀ n, PlainName n → v n = some [] → ¬ L.readable [] → L.cache w o n = none

/-- The abstract storage; `b` tells if nothing can be read that is empty. -/
def specObserve [DiffLib] (b : Bool) (p : Profile) : Op → (String → Option Bytes) → Obs × (String → Option Bytes)
  | .exists_ n, v => (.exists_ (v n).isSome, v)
  | .write n s d, v => (.wrote, fun m => if m = n then some (image d) else if m = n ++ ".schema" then some (strBytes s) else v m)
  | .read n s, v =>
    (match v n with
    | none => .failed (.io .notFound n)
    | some d =>
      if b && d == [] then .failed (.io .invalidInput n)
      else match v (n ++ ".schema") with
      | none => .failed (.io .notFound n)
      | some c =>
        if b && c == [] then .failed (.io .invalidInput n)
        else match verdict p n s d c with
        | .ok b => .bytes b
        | .err x => .failed x
        | .panic => .panicked
        | .ub => .undefined, v)

section
variable {B : Backend} {L : Laws B} {o : B.Obj} {G : B.W → Prop}

theorem plain_schema {n : String} (h : PlainName n) : PlainName (n ++ ".schema") :=
  h.append (by constructor <;> decide)

theorem Sim.keeps {v : String → Option Bytes} {w w' : B.W} (hs : Sim L o G v w) (hi : L.inv w) (hg : G w') (hn : L.noFault w')
    (k : ∀ n, PlainName n → Keeps L w w' (L.loc o n)) : Sim L o G v w' := by
  refine ⟨hg, hn, fun n h => ((k n h).medium).trans (hs.medium n h), fun n s h hc => ?_, fun n h h1 h2 => ?_⟩
  · rw [(k n h).cache o n rfl] at hc
    obtain ⟨d, h1, h2⟩ := hs.cache n s h hc
    exact ⟨d, h1, (deref_keeps ((k n h).content _ (L.inv_bloc hi hc))).trans h2⟩
  · rw [(k n h).cache o n rfl]
    exact hs.blank n h h1 h2

/-- Reading one stored resource. -/
theorem sim_readResource (H : Host L o G) {v : String → Option Bytes} {w : B.W} (hs : Sim L o G v w) {n : String} (hp : PlainName n) :
    (v n = none ∧ ∃ w', B.readResource o n w = (.err .notFound, w') ∧ Sim L o G v w') ∨
    (v n = some [] ∧ ¬ L.readable [] ∧ ∃ w', B.readResource o n w = (.err .invalidInput, w') ∧ Sim L o G v w') ∨
    (∃ d s w', v n = some d ∧ (d = [] → L.readable []) ∧ B.readResource o n w = (.ok s, w') ∧ B.deref w' s = .ok d ∧ L.bloc s.base = L.loc o n ∧ Sim L o G v w') := by
  have hi := H.inv hs.good
  cases hv : v n with
  | none =>
    have hc : L.cache w o n = none := by
      cases hc : L.cache w o n with
      | none => rfl
      | some s => obtain ⟨d, h1, _⟩ := hs.cache n s hp hc; rw [hv] at h1; cases h1
    obtain ⟨w', h, k⟩ := H.missing hs.good hs.noFault hp ((hs.medium n hp).trans hv) hc
    refine .inl ⟨rfl, w', h, ?_⟩
    have hg := H.read hs.good hp
    rw [h] at hg
    exact hs.keeps hi hg ((L.read_keeps h).2.2.2.2 hs.noFault) fun m _ => k _
  | some d =>
    have hm := (hs.medium n hp).trans hv
    by_cases hb : d = [] ∧ ¬ L.readable []
    · obtain ⟨rfl, hb⟩ := hb
      obtain ⟨w', h, k⟩ := H.blank hs.good hs.noFault hp hm (hs.blank n hp hv hb) hb
      refine .inr (.inl ⟨rfl, hb, w', h, ?_⟩)
      have hg := H.read hs.good hp
      rw [h] at hg
      exact hs.keeps hi hg ((L.read_keeps h).2.2.2.2 hs.noFault) fun m _ => k _
    have hrd : d = [] → L.readable [] := fun h1 => Classical.byContradiction fun h2 => hb ⟨h1, h2⟩
    obtain ⟨s, w', h⟩ := L.read_some hs.noFault hm (by by_cases h1 : d = []; · subst h1; exact hrd rfl
                                                       · exact L.readable_of_ne d h1)
    have hg := H.read hs.good hp
    rw [h] at hg
    have hk := L.read_keeps h
    have hok := L.read_ok h
    have hd : B.deref w' s = .ok d ∧ L.bloc s.base = L.loc o n := by
      rcases hok.2 with hc | ⟨hc, d', hd', h1, h2, h3, h4, _⟩
      · obtain ⟨d', e1, e2⟩ := hs.cache n s hp hc
        rw [hv] at e1; cases e1
        exact ⟨(deref_keeps (hk.2.2.2.1 _ (.inr (by rw [hc]; simp)))).trans e2, L.inv_bloc hi hc⟩
      · rw [hm] at hd'; cases hd'
        refine ⟨?_, h3⟩
        unfold Backend.deref
        rw [h1, h2, h4]; simp
    refine .inr (.inr ⟨d, s, w', rfl, hrd, h, hd.1, hd.2, hg, hk.2.2.2.2 hs.noFault, fun m hm => (hk.1 _).trans (hs.medium m hm), ?_, ?_⟩)
    · intro m t hpm hc
      by_cases he : m = n
      · subst he
        rw [hok.1] at hc; cases hc
        exact ⟨d, hv, hd.1⟩
      · have hl := H.inj hpm hp he
        rw [hk.2.2.1 _ _ hl] at hc
        obtain ⟨d', e1, e2⟩ := hs.cache m t hpm hc
        exact ⟨d', e1, (deref_keeps (hk.2.2.2.1 _ (.inl (by rw [L.inv_bloc hi hc]; exact hl)))).trans e2⟩
    · intro m hpm h1 h2
      by_cases he : m = n
      · subst he
        rw [hv] at h1
        exact absurd (hrd (Option.some.inj h1)) h2
      · rw [hk.2.2.1 _ _ (H.inj hpm hp he)]
        exact hs.blank m hpm h1 h2

/-- Both storages behave like the abstract one, call by call. -/
theorem sim_observe [DiffLib] (p : Profile) (e : Endian) (H : Host L o G) {b : Bool} (hb : b = true ↔ ¬ L.readable [])
    {v : String → Option Bytes} {w : B.W}
    (hs : Sim L o G v w) (used : List String) (hused : ∀ n, n ∉ used → v n = none) (op : Op) (h : List Op)
    (hop : WriteOnce (fun _ => True) used (op :: h)) :
    (observe B p e o op w).1 = (specObserve b p op v).1 ∧ Sim L o G (specObserve b p op v).2 (observe B p e o op w).2 := by
  have hi := H.inv hs.good
  cases op with
  | exists_ n =>
    obtain ⟨hp, hop⟩ := hop
    obtain ⟨w', h1, hg, hn, k⟩ := H.exists_ hs.good hs.noFault hp
    simp only [observe, h1, specObserve]
    exact ⟨by rw [hs.medium n hp], hs.keeps hi hg hn fun m _ => k _⟩
  | read n s =>
    obtain ⟨hp, hop⟩ := hop
    have hp' := plain_schema hp
    have merr : ∀ {m : String} {w w' : B.W} {x}, B.readResource o m w = (.err x, w') →
        (B.readResource o m).mapErr (RErr.io · n) w = (.err (.io x n), w') := by
      intro n w w' s h; unfold Act.mapErr; rw [h]
    have hbf : ∀ {d : Bytes}, (d = [] → L.readable []) → (b && d == []) = false := by
      intro d hd
      cases hbb : b with
      | false => rfl
      | true =>
        have := hb.mp hbb
        cases d with
        | nil => exact absurd (hd rfl) this
        | cons => rfl
    have hbt : ¬ L.readable [] → (b && ([] : Bytes) == []) = true := by
      intro h; rw [hb.mpr h]; rfl
    simp only [observe, specObserve]
    rcases sim_readResource H hs hp with ⟨v1, w1, r1, s1⟩ | ⟨v1, u1, w1, r1, s1⟩ | ⟨d, sd, w1, v1, u1, r1, d1, b1, s1⟩
    · have : Storage.read B p e o n s w = (.err (.io .notFound n), w1) := by
        unfold Storage.read; rw [Act.bind_err (merr r1)]
      rw [this, v1]; exact ⟨rfl, s1⟩
    · have : Storage.read B p e o n s w = (.err (.io .invalidInput n), w1) := by
        unfold Storage.read; rw [Act.bind_err (merr r1)]
      rw [this, v1]
      simp only [hbt u1, if_true]
      exact ⟨trivial, s1⟩
    · rcases sim_readResource H s1 hp' with ⟨v2, w2, r2, s2⟩ | ⟨v2, u2, w2, r2, s2⟩ | ⟨c, ss, w2, v2, u2, r2, d2, b2, s2⟩
      · have : Storage.read B p e o n s w = (.err (.io .notFound n), w2) := by
          change B.readResource o (Storage.schemaName n) w1 = _ at r2
          unfold Storage.read; rw [Act.bind_ok (FileSt.mapErr_ok r1), Act.bind_err (merr r2)]
        rw [this, v1, v2]
        simp only [hbf u1, Bool.false_eq_true, if_false]
        exact ⟨trivial, s2⟩
      · have : Storage.read B p e o n s w = (.err (.io .invalidInput n), w2) := by
          change B.readResource o (Storage.schemaName n) w1 = _ at r2
          unfold Storage.read; rw [Act.bind_ok (FileSt.mapErr_ok r1), Act.bind_err (merr r2)]
        rw [this, v1, v2]
        simp only [hbf u1, hbt u2, Bool.false_eq_true, if_false, if_true]
        exact ⟨trivial, s2⟩
      · have hne : L.loc o n ≠ L.loc o (n ++ ".schema") := H.inj hp hp' (by
          intro he
          have := congrArg (fun s => s.toList.length) he
          simp at this)
        have d1' : B.deref w2 sd = .ok d := by
          rw [deref_keeps ((L.read_keeps r2).2.2.2.1 _ (.inl (by rw [b1]; exact hne)))]; exact d1
        have := read_from p e r1 r2 d1' d2 (expected := s)
        rw [this, v1, v2]
        simp only [hbf u1, hbf u2, Bool.false_eq_true, if_false]
        cases hv : verdict p n s d c with
        | ok x =>
          obtain ⟨hx, _, _⟩ := verdict_ok.mp hv
          have hlen := hx.length
          have := deref_length d1'
          have hsub : B.deref w2 ⟨sd.base, sd.off + 8, x.length⟩ = .ok x := by
            rw [deref_sub d1' (by omega), hx.body]
          simp only [toSlice, hsub]
          exact ⟨trivial, s2⟩
        | err x => simp only [toSlice]; exact ⟨trivial, s2⟩
        | panic => simp only [toSlice]; exact ⟨trivial, s2⟩
        | ub => simp only [toSlice]; exact ⟨trivial, s2⟩
  | write n s d =>
    obtain ⟨hp, hsn, hd, hn1, hn2, hop⟩ := hop
    have hp' := plain_schema hp
    have hne' : n ≠ n ++ ".schema" := by
      intro he
      have := congrArg (fun s => s.toList.length) he
      simp at this
    have hne : L.loc o (Storage.schemaName n) ≠ L.loc o n := H.inj hp' hp (Ne.symm hne')
    have m1 : L.medium w (L.loc o n) = none := (hs.medium n hp).trans (hused n hn1)
    have m2 : L.medium w (L.loc o (Storage.schemaName n)) = none := (hs.medium _ hp').trans (hused _ hn2)
    have hd64 : d.length < 2 ^ 64 := Nat.lt_trans hd (by decide)
    obtain ⟨w', hw, hg⟩ := write_succeeds L p e (o := o) (name := n) (schema := s) (data := d) (fun w => G w ∧ L.noFault w)
      ⟨hs.good, hs.noFault⟩
      (fun m w hm ⟨hg, hf⟩ => by
        have hpm : PlainName m := by rcases hm with rfl | rfl; exact hp; exact hp'
        obtain ⟨t, w', hc, hg'⟩ := H.create hg hf hpm
        exact ⟨t, w', hc, hg', (L.create_keeps hc).2.2.2.2 hf⟩)
      (fun t b w ⟨hg, hf⟩ hl => ⟨H.write hg hl, (L.write_keeps hl (r := (B.writeAll t b w).1) (w' := (B.writeAll t b w).2) rfl).2.2.2.2 hf⟩)
      hs.noFault hd64 hne (by rw [m1]; exact L.fresh_none) (by rw [m2]; exact L.fresh_none)
    obtain ⟨r, w'', hw', hout, honly⟩ := write_spec (L := L) p e o n s w hd64 hne (by rw [m1]; exact L.fresh_none)
      (by rw [m2]; exact L.fresh_none)
    rw [hw] at hw'
    cases hw'
    simp only [observe, hw, specObserve]
    have hother : ∀ m, PlainName m → m ≠ n → m ≠ n ++ ".schema" → Keeps L w w' (L.loc o m) := by
      intro m hpm h1 h2
      apply honly.keeps
      rintro (hl | hl)
      · exact H.inj hpm hp h1 hl
      · exact H.inj hpm hp' h2 hl
    cases hout with
    | ok e1 e2 =>
      refine ⟨trivial, ⟨hg.1, hg.2, ?_, ?_, ?_⟩⟩
      · intro m hpm
        split
        · rename_i h; rw [h]; exact e1
        · split
          · rename_i h; rw [h]; exact e2
          · rename_i h1 h2
            rw [(hother m hpm h1 h2).medium, hs.medium m hpm]
      · intro m t hpm hc
        rw [honly.cache] at hc
        obtain ⟨d', v1, r1⟩ := hs.cache m t hpm hc
        have h1 : m ≠ n := by rintro rfl; rw [hused _ hn1] at v1; cases v1
        have h2 : m ≠ n ++ ".schema" := by rintro rfl; rw [hused _ hn2] at v1; cases v1
        rw [if_neg h1, if_neg h2]
        exact ⟨d', v1, (deref_keeps ((hother m hpm h1 h2).content _ (L.inv_bloc hi hc))).trans r1⟩
      · intro m hpm h1 h2
        rw [honly.cache]
        by_cases hm : m ∈ used
        · have h3 : m ≠ n := by rintro rfl; exact hn1 hm
          have h4 : m ≠ n ++ ".schema" := by rintro rfl; exact hn2 hm
          rw [if_neg h3, if_neg h4] at h1
          exact hs.blank m hpm h1 h2
        · cases hc : L.cache w o m with
          | none => rfl
          | some t =>
            obtain ⟨d', v1, _⟩ := hs.cache m t hpm hc
            rw [hused m hm] at v1
            cases v1

/-- The names in use after an operation. -/
def usedAfter (used : List String) : Op → List String
  | .exists_ _ => used
  | .write n _ _ => n :: (n ++ ".schema") :: used
  | .read _ _ => used

theorem specObserve_used [DiffLib] {b : Bool} {p : Profile} {v : String → Option Bytes} {used : List String} (hused : ∀ n, n ∉ used → v n = none)
    (op : Op) : ∀ n, n ∉ usedAfter used op → (specObserve b p op v).2 n = none := by
  cases op with
  | exists_ n => exact hused
  | read n s => exact hused
  | write n s d =>
    intro m hm
    simp only [usedAfter, List.mem_cons, not_or] at hm
    change (if m = n then some (image d) else if m = n ++ ".schema" then some (strBytes s) else v m) = none
    rw [if_neg hm.1, if_neg hm.2.1]
    exact hused m hm.2.2

theorem Spec.WriteOnce.tail {S : String → Prop} {used : List String} {op : Op} {h : List Op} (hop : WriteOnce S used (op :: h)) :
    WriteOnce S (usedAfter used op) h := by
  cases op with
  | exists_ n => exact hop.2
  | read n s => exact hop.2
  | write n s d => exact hop.2.2.2.2.2

/-- The abstract storage, for a whole history. -/
def specObserveAll [DiffLib] (b : Bool) (p : Profile) : List Op → (String → Option Bytes) → List Obs
  | [], _ => []
  | op :: h, v => (specObserve b p op v).1 :: specObserveAll b p h (specObserve b p op v).2

theorem sim_observeAll [DiffLib] (p : Profile) (e : Endian) (H : Host L o G) {b : Bool} (hb : b = true ↔ ¬ L.readable []) (h : List Op) :
    ∀ (used : List String) (v : String → Option Bytes) (w : B.W), Sim L o G v w → (∀ n, n ∉ used → v n = none) →
    WriteOnce (fun _ => True) used h → observeAll B p e o h w = specObserveAll b p h v := by
  induction h with
  | nil => intros; rfl
  | cons op h ih =>
    intro used v w hs hused hop
    obtain ⟨a1, a2⟩ := sim_observe p e H hb hs used hused op h hop
    simp only [observeAll, specObserveAll]
    rw [a1, ih (usedAfter used op) _ _ a2 (specObserve_used hused op) hop.tail]

end

theorem memHost (o : Obj) : Host memLaws o (fun w => memLaws.inv w ∧ memLaws.objLive w o) where
  inj hn hm h := Kind.loc_plain_ne .memory o hn hm h
  inv h := h.1
  exists_ {w n} hg _ _ := by
    refine ⟨w, ?_, hg, trivial, fun l => .refl w l⟩
    change MemSt.existsRes o n w = _
    unfold MemSt.existsRes
    have : ((w.resources (MemSt.loc o n)).isSome || (w.streams (MemSt.loc o n)).isSome) =
        (memLaws.medium w (memLaws.loc o n)).isSome := by
      change _ = (Option.map _ (w.streams (MemSt.loc o n))).isSome
      cases h : w.streams (MemSt.loc o n) with
      | none => rw [hg.1.1 _ h]; rfl
      | some x => simp
    rw [this]
  missing {w n} _ _ _ hm hc := by
    refine ⟨w, ?_, fun l => .refl w l⟩
    rcases MemSt.read_cases o n w with ⟨d, h1, h2⟩ | ⟨d, q, h1, h3, h2⟩ | ⟨_, h3, h2⟩
    · change Option.map _ (w.resources (MemSt.loc o n)) = none at hc; rw [h1] at hc; cases hc
    · change Option.map _ (w.streams (MemSt.loc o n)) = none at hm; rw [h3] at hm; cases hm
    · exact h2
  blank _ _ _ _ _ hb := absurd trivial hb
  create {w n} hg _ _ := by
    have hi := memLaws.create_inv (o := o) (n := n) hg.1 hg.2 (r := (mem.createOutputStream o n w).1) rfl
    have ha := (Kind.Step.create (k := .memory) (o := o) (n := n) hg.2 rfl).alive (o := o) hg.2
    rcases MemSt.create_cases o n w with ⟨_, _, h⟩ | ⟨_, h⟩
    · exact ⟨_, _, h, hg⟩
    · refine ⟨_, _, h, ?_⟩
      change memLaws.inv (MemSt.createOutputStream o n w).2 at hi
      change Kind.alive .memory (MemSt.createOutputStream o n w).2 o at ha
      rw [h] at hi ha
      exact ⟨hi, ha⟩
  read {w n} hg _ := ⟨memLaws.read_inv hg.1 (r := (mem.readResource o n w).1) rfl,
    (Kind.Step.read (k := .memory) (o := o) (n := n) hg.2 rfl).alive (o := o) hg.2⟩
  write {w s b} hg _ := ⟨memLaws.write_inv hg.1 (r := (mem.writeAll s b w).1) rfl,
    (Kind.Step.write (k := .memory) (s := s) (b := b) rfl).alive (o := o) hg.2⟩

/-- States of the disk in which resources of `path` can be created. -/
structure Creatable (path : Path) (w : FileW) : Prop where
  inv : FileSt.Inv w
  noDir : ∀ n, w.fs.isDir (key path ++ [n]) = false
  parents : ∀ i, w.fs.files ((key path).take i) = none

theorem Creatable.quiet {path : Path} {w w' : FileW} (h : Creatable path w) (q : FileSt.Quiet w w') (hd : w'.fs.isDir = w.fs.isDir) :
    Creatable path w' :=
  ⟨h.inv.quiet q, fun n => by rw [hd]; exact h.noDir n, fun i => by rw [q.files]; exact h.parents i⟩

theorem take_ne_snoc (k : Key) (i : Nat) (n : List Char) : k.take i ≠ k ++ [n] := by
  intro h
  have := congrArg List.length h
  simp at this
  omega

theorem fileHost (o : Obj) : Host fileLaws o (Creatable o.path) where
  inj hn hm h := Kind.loc_plain_ne .disk o hn hm h
  inv h := h.inv
  exists_ {w n} hg hn hp := by
    obtain ⟨b, w', h1, q, hd, hb, _⟩ := FileSt.pathExists_spec (join o.path n) w
    refine ⟨w', ?_, hg.quiet q hd, q.noFault hn, q.keeps⟩
    change FileSt.pathExists (join o.path n) w = _
    rw [h1, hb hn]
    change _ = (Res.ok (w.fs.files (key (join o.path n))).isSome, w')
    rw [key_join_plain o.path hp]
    have : FileSt.dirOK w.fs (key o.path ++ [n.toList]) = false := by
      unfold FileSt.dirOK; rw [hg.noDir]; simp
    rw [this]; simp
  missing {w n} hg hn hp hm hc := by
    obtain ⟨b, w', h1, q, hd, hb, _⟩ := FileSt.pathExists_spec (join o.path n) w
    have hbf : b = false := by
      rw [hb hn]
      change w.fs.files (key (join o.path n)) = none at hm
      rw [hm, key_join_plain o.path hp]
      have : FileSt.dirOK w.fs (key o.path ++ [n.toList]) = false := by
        unfold FileSt.dirOK; rw [hg.noDir]; simp
      rw [this]; simp
    subst hbf
    refine ⟨w', ?_, q.keeps⟩
    change FileSt.readResource o n w = _
    unfold FileSt.readResource
    rw [Act.bind_ok (FileSt.mapErr_ok h1)]; rfl
  blank {w n} hg hn hp hm hc _ := by
    obtain ⟨b, w1, h1, q1, _, hb, _⟩ := FileSt.pathExists_spec (join o.path n) w
    change w.fs.files (key (join o.path n)) = some [] at hm
    have hbt : b = true := by rw [hb hn, hm]; rfl
    subst hbt
    have hn1 : FileSt.NoFault w1 := q1.noFault hn
    have hm1 : w1.fs.files (key (join o.path n)) = some [] := by rw [q1.files]; exact hm
    have hc1 : w1.maps o.id (join o.path n) = none := by
      change Option.map _ (w.maps o.id (join o.path n)) = none at hc
      rw [q1.maps]
      exact Option.map_eq_none_iff.mp hc
    have f1 : w1.fs.fault w1.fs.tick = none := hn1 _ (Nat.le_refl _)
    have e1 : FileSt.fileOpen (join o.path n) w1 = (.ok (key (join o.path n)), FileSt.tk w1) := by
      unfold FileSt.fileOpen
      rw [FileSt.syscall_noFault f1]
      have : ((FileSt.tk w1).fs.files (key (join o.path n))).isSome = true := by
        change (w1.fs.files _).isSome = true
        rw [hm1]; rfl
      simp only [this, Bool.true_or, if_true]
      rfl
    have hn2 : FileSt.NoFault (FileSt.tk w1) := (FileSt.tk_quiet w1).noFault hn1
    have f2 : (FileSt.tk w1).fs.fault (FileSt.tk w1).fs.tick = none := hn2 _ (Nat.le_refl _)
    have e2 : FileSt.mmapLen (key (join o.path n)) (FileSt.tk w1) = (.err .invalidInput, FileSt.tk (FileSt.tk w1)) := by
      unfold FileSt.mmapLen
      rw [FileSt.syscall_noFault f2]
      have : (FileSt.tk (FileSt.tk w1)).fs.files (key (join o.path n)) = some [] := hm1
      simp only [this]
      rfl
    refine ⟨FileSt.tk (FileSt.tk w1), ?_, (q1.trans ((FileSt.tk_quiet w1).trans (FileSt.tk_quiet _))).keeps⟩
    change FileSt.readResource o n w = _
    unfold FileSt.readResource
    rw [Act.bind_ok (FileSt.mapErr_ok h1)]
    change FileSt.mapRead o (join o.path n) w1 = _
    unfold FileSt.mapRead
    rw [hc1]
    dsimp only
    rw [Act.bind_ok e1, Act.bind_err e2]
  create {w n} hg hn hp := by
    have fin : ∀ w1, Creatable o.path w1 → FileSt.NoFault w1 → FileSt.dirOK w1.fs (key o.path) = true →
        ∃ s w', FileSt.fileCreate (join o.path n) w1 = (.ok s, w') ∧ Creatable o.path w' := by
      intro w1 g1 n1 hd
      have hcc : FileSt.canCreate w1.fs (key (join o.path n)) = true := by
        rw [key_join_plain o.path hp]
        have h1 : FileSt.dirOK w1.fs (key o.path ++ [n.toList]) = false := by
          unfold FileSt.dirOK; rw [g1.noDir]; simp
        unfold FileSt.canCreate
        rw [List.dropLast_concat, hd, h1]; simp
      rcases FileSt.fileCreate_spec (join o.path n) w1 with ⟨_, h⟩ | ⟨x, _, h⟩ | ⟨x, _, _, h⟩
      · refine ⟨_, _, h, ?_, g1.noDir, fun i => ?_⟩
        · have g2 := (g1.inv.quiet (FileSt.tk_quiet w1)).moreFiles (key (join o.path n)) []
          refine ⟨g2.maps, fun s hs => ?_⟩
          change upd w1.fs.files _ _ (upd w1.fs.fds w1.fs.nextFd _ s).1 ≠ none
          by_cases he : s = w1.fs.nextFd
          · rw [he, upd_same, upd_same]; simp
          · rw [upd_other _ _ he]
            have : s < w1.fs.nextFd + 1 := hs
            exact g2.fds s (show s < w1.fs.nextFd by omega)
        · change upd w1.fs.files _ _ _ = none
          rw [key_join_plain o.path hp, upd_other _ _ (take_ne_snoc _ _ _)]
          exact g1.parents i
      · rw [h n1] at hcc; cases hcc
      · exact absurd n1 h
    obtain ⟨b, w1, h1, q1, d1, hb, hb'⟩ := FileSt.pathExists_spec o.path w
    change ∃ s w', FileSt.createOutputStream o n w = (.ok s, w') ∧ _
    unfold FileSt.createOutputStream
    rw [Act.bind_ok (FileSt.mapErr_ok h1)]
    cases b with
    | true =>
      simp only [Bool.not_true, Bool.false_eq_true, if_false]
      refine fin w1 (hg.quiet q1 d1) (q1.noFault hn) ?_
      have h0 := hg.parents (key o.path).length
      rw [List.take_length] at h0
      have := hb' rfl
      rw [h0] at this
      unfold FileSt.dirOK at this ⊢
      rw [d1]; simpa using this
    | false =>
      simp only [Bool.not_false, if_true]
      have g1 := hg.quiet q1 d1
      rcases FileSt.createDirAll_spec o.path w1 with ⟨w2, h2, q2, d2⟩ | ⟨x, w2, h2, q2, hbl, _⟩
      · rw [Act.bind_ok h2]
        refine fin w2 ⟨g1.inv.quiet q2, fun m => ?_, fun i => ?_⟩ (q2.noFault (q1.noFault hn)) ?_
        · rw [d2, g1.noDir]
          cases hx : (key o.path ++ [m]).isPrefixOf (key o.path) with
          | false => rfl
          | true =>
            have := (List.isPrefixOf_iff_prefix.mp hx).length_le
            simp at this
            omega
        · rw [q2.files]; exact g1.parents i
        · unfold FileSt.dirOK
          rw [d2]
          have : (key o.path).isPrefixOf (key o.path) = true := List.isPrefixOf_iff_prefix.mpr (List.prefix_refl _)
          rw [this]; simp
      · have := hbl (q1.noFault hn)
        unfold FileSt.blocked at this
        rw [List.any_eq_true] at this
        obtain ⟨i, _, hi⟩ := this
        rw [g1.parents i] at hi; cases hi
  read {w n} hg hp := by
    have hi := fileLaws.read_inv (o := o) (n := n) hg.inv (r := (file.readResource o n w).1) rfl
    change Creatable o.path (FileSt.readResource o n w).2
    change fileLaws.inv (FileSt.readResource o n w).2 at hi
    rcases FileSt.read_spec o n w with ⟨k, m, w1, _, q, d, h⟩ | ⟨d', w1, _, _, _, q, d, h⟩ | ⟨x, w1, q, d, h, _⟩ <;>
      rw [h] at hi ⊢
    · exact hg.quiet q d
    · have := hg.quiet q d
      exact ⟨hi, this.noDir, this.parents⟩
    · exact hg.quiet q d
  write {w s b} hg hl := by
    have hi := fileLaws.write_inv (s := s) (b := b) hg.inv (r := (file.writeAll s b w).1) rfl
    change Creatable o.path (FileSt.writeAll s b w).2
    change fileLaws.inv (FileSt.writeAll s b w).2 at hi
    have hne : ∀ i, (key o.path).take i ≠ (w.fs.fds s).1 := by
      intro i he
      exact hg.inv.fds s hl (by rw [← he]; exact hg.parents i)
    rcases FileSt.writeAll_spec s b w with h | ⟨x, k, h, _⟩ <;> rw [h] at hi ⊢
    · refine ⟨hi, hg.noDir, fun i => ?_⟩
      change upd w.fs.files (w.fs.fds s).1 _ _ = none
      rw [upd_other _ _ (hne i)]; exact hg.parents i
    · refine ⟨hi, hg.noDir, fun i => ?_⟩
      change upd w.fs.files (w.fs.fds s).1 _ _ = none
      rw [upd_other _ _ (hne i)]; exact hg.parents i

/-- C38 in full: a history that writes every resource at most once cannot tell an empty memory storage from an empty
directory; every call has the same result. -/
def C38_claim : Prop :=
  ∀ (_ : DiffLib) (p : Profile) (e : Endian) (wm : MemW) (wd : FileW) (om od : Obj) (h : List Op),
    Kind.Reachable .memory wm → Kind.alive .memory wm om → (∀ n, Kind.stored .memory wm om n = none) →
    Kind.Reachable .disk wd → EmptyDir wd od.path → Kind.noFault .disk wd → WriteOnce (fun _ => True) [] h →
    observeAll mem p e om h wm = observeAll file p e od h wd

open StorageExample in
/-- A resource with an empty schema can be read from memory but not from disk. -/
theorem C38_refuted : ¬ C38_claim := by
  intro h
  have := h naiveDiff .debug .little mem0 (disk0 []) obj ⟨0, "d".toList⟩ [.write "x" "" [], .read "x" ""] mem0_reachable
    (by change 0 < 1; decide) (fun _ => rfl) (disk0_reachable _ _)
    ⟨fun n => rfl, fun n => by
      have hk : key "d".toList = [['d']] := by decide
      change decide (key "d".toList ++ [n] = [['d']]) = false
      rw [hk]; simp, fun i => rfl⟩ (disk0_noFault _) (by unfold WriteOnce WriteOnce WriteOnce; decide)
  exact absurd this (by decide)

/-- What both storages do in empty ones. -/
theorem observe_both [DiffLib] (p : Profile) (e : Endian) (wm : MemW) (wd : FileW) (om od : Obj) (h : List Op)
    (hm : Kind.Reachable .memory wm) (ham : Kind.alive .memory wm om) (hem : ∀ n, Kind.stored .memory wm om n = none)
    (hd : Kind.Reachable .disk wd) (hed : EmptyDir wd od.path) (hn : Kind.noFault .disk wd) (hh : WriteOnce (fun _ => True) [] h) :
    observeAll mem p e om h wm = specObserveAll false p h (fun _ => none) ∧
    observeAll file p e od h wd = specObserveAll true p h (fun _ => none) := by
  constructor
  · refine sim_observeAll p e (memHost om) ⟨fun h => (by cases h), fun h => absurd trivial h⟩ h [] (fun _ => none) wm ?_ (fun _ _ => rfl) hh
    refine ⟨⟨hm.inv, ham⟩, trivial, fun n _ => hem n, fun n s _ hc => ?_, fun n _ h => by cases h⟩
    have := hm.unread (hem n)
    rw [Kind.unread_iff] at this
    rw [show memLaws.cache wm om n = none from this] at hc; cases hc
  · refine sim_observeAll p e (fileHost od) ⟨fun _ h => h rfl, fun _ => rfl⟩ h [] (fun _ => none) wd ?_ (fun _ _ => rfl) hh
    have hst : ∀ n, PlainName n → Kind.stored .disk wd od n = none := by
      intro n hp
      change wd.fs.files (key (join od.path n)) = none
      rw [key_join_plain _ hp]; exact hed.noFile _
    refine ⟨⟨hd.inv, hed.noDir, hed.parents⟩, hn, fun n hp => hst n hp, fun n s hp hc => ?_, fun n _ h => by cases h⟩
    have := hd.unread (hst n hp)
    rw [Kind.unread_iff] at this
    rw [show fileLaws.cache wd od n = none from this] at hc; cases hc

/-- The empty resources of the abstract storage are the empty schemas. -/
def Blanks (v : String → Option Bytes) (before : List Op) : Prop :=
  ∀ n, v n = some [] ↔ ∃ m d, Op.write m "" d ∈ before ∧ n = m ++ ".schema"

theorem Blanks.observe [DiffLib] {b : Bool} {p : Profile} {v : String → Option Bytes} {used : List String} {before : List Op} {op : Op} {h : List Op}
    (hbl : Blanks v before) (hused : ∀ n, n ∉ used → v n = none) (hop : WriteOnce (fun _ => True) used (op :: h)) :
    Blanks (specObserve b p op v).2 (before ++ [op]) := by
  have mem' : ∀ m d, Op.write m "" d ∈ before ++ [op] ↔ Op.write m "" d ∈ before ∨ op = Op.write m "" d := by
    intro m d
    rw [List.mem_append, List.mem_singleton, eq_comm (a := op)]
  intro n
  cases op with
  | exists_ k =>
    refine (hbl n).trans ⟨fun ⟨m, d, h1, h2⟩ => ⟨m, d, (mem' m d).mpr (.inl h1), h2⟩, fun ⟨m, d, h1, h2⟩ => ?_⟩
    rcases (mem' m d).mp h1 with h1 | h1
    · exact ⟨m, d, h1, h2⟩
    · cases h1
  | read k s =>
    refine (hbl n).trans ⟨fun ⟨m, d, h1, h2⟩ => ⟨m, d, (mem' m d).mpr (.inl h1), h2⟩, fun ⟨m, d, h1, h2⟩ => ?_⟩
    rcases (mem' m d).mp h1 with h1 | h1
    · exact ⟨m, d, h1, h2⟩
    · cases h1
  | write k s d =>
    obtain ⟨_, _, _, hn1, hn2, _⟩ := hop
    change (if n = k then some (image d) else if n = k ++ ".schema" then some (strBytes s) else v n) = some [] ↔ _
    have old : ∀ m d', Op.write m "" d' ∈ before → m ++ ".schema" ∈ used := by
      intro m d' h1
      apply Classical.byContradiction
      intro hc
      have h2 := (hbl _).mpr ⟨m, d', h1, rfl⟩
      rw [hused _ hc] at h2
      cases h2
    by_cases h1 : n = k
    · rw [if_pos h1]
      constructor
      · intro h
        have := congrArg (Option.map List.length) h
        simp [image, length_le64] at this
      · rintro ⟨m, d', h2, h3⟩
        exfalso
        rcases (mem' m d').mp h2 with h2 | h2
        · exact hn1 (h1 ▸ h3 ▸ old m d' h2)
        · cases h2
          rw [h1] at h3
          have := congrArg (fun s => s.toList.length) h3
          simp at this
    · rw [if_neg h1]
      by_cases h2 : n = k ++ ".schema"
      · rw [if_pos h2]
        constructor
        · intro h
          rw [strBytes_eq_nil.mp (Option.some.inj h)]
          exact ⟨k, d, by simp, h2⟩
        · rintro ⟨m, d', h3, h4⟩
          rcases (mem' m d').mp h3 with h3 | h3
          · exact absurd (h2 ▸ h4 ▸ old m d' h3) hn2
          · cases h3
            rfl
      · rw [if_neg h2]
        refine (hbl n).trans ⟨fun ⟨m, d, h1, h2⟩ => ⟨m, d, (mem' m d).mpr (.inl h1), h2⟩, fun ⟨m, d', h3, h4⟩ => ?_⟩
        rcases (mem' m d').mp h3 with h3 | h3
        · exact ⟨m, d', h3, h4⟩
        · cases h3
          exact absurd h4 h2

/-- The two abstract storages differ in one call exactly if it reads what is empty. -/
theorem specObserve_differ [DiffLib] {p : Profile} {v : String → Option Bytes} (hs : ∀ n, v (n ++ ".schema") = some [] → v n ≠ none) (op : Op) :
    (specObserve false p op v).1 = (specObserve true p op v).1 ↔
    ∀ n s, op = .read n s → v n ≠ some [] ∧ v (n ++ ".schema") ≠ some [] := by
  have hv : ∀ {n s : String} {d c : Bytes} {k m}, verdict p n s d c ≠ .err (.io k m) := by
    intro n s d c k m h
    unfold verdict at h
    repeat' split at h
    all_goals cases h
  cases op with
  | exists_ n => exact ⟨fun _ n s h => (by cases h), fun _ => rfl⟩
  | write n s d => exact ⟨fun _ n s h => (by cases h), fun _ => rfl⟩
  | read n s =>
    simp only [Op.read.injEq, specObserve]
    have hcons : ∀ {d : Bytes} {b : Bool}, d ≠ [] → (b && d == []) = false := by
      intro d b h
      cases d with
      | nil => exact absurd rfl h
      | cons => simp
    constructor
    · rintro h n s ⟨rfl, rfl⟩
      constructor
      · intro h1
        rw [h1] at h
        cases h2 : v (n ++ ".schema") with
        | none => rw [h2] at h; simp at h
        | some c =>
          rw [h2] at h
          simp only [Bool.false_and, Bool.false_eq_true, if_false, Bool.true_and, beq_self_eq_true, if_true] at h
          cases h3 : verdict p n s [] c with
          | ok x => rw [h3] at h; cases h
          | err x => rw [h3] at h; cases h; exact hv h3
          | panic => rw [h3] at h; cases h
          | ub => rw [h3] at h; cases h
      · intro h2
        cases h1 : v n with
        | none => exact hs n h2 h1
        | some d =>
          rw [h1, h2] at h
          simp only [Bool.false_and, Bool.false_eq_true, if_false, Bool.true_and, beq_self_eq_true, if_true, ite_self] at h
          cases h3 : verdict p n s d [] with
          | ok x => rw [h3] at h; cases h
          | err x => rw [h3] at h; cases h; exact hv h3
          | panic => rw [h3] at h; cases h
          | ub => rw [h3] at h; cases h
    · intro h
      obtain ⟨h1, h2⟩ := h n s ⟨rfl, rfl⟩
      cases hd : v n with
      | none => rfl
      | some d =>
        have hd' : d ≠ [] := by rintro rfl; exact h1 hd
        simp only [hcons hd', Bool.false_eq_true, if_false]
        cases hc : v (n ++ ".schema") with
        | none => rfl
        | some c =>
          have hc' : c ≠ [] := by rintro rfl; exact h2 hc
          simp only [hcons hc', Bool.false_eq_true, if_false]

/-- What is stored for a name that has a schema. -/
def Paired (v : String → Option Bytes) (used : List String) (before : List Op) : Prop :=
  ∀ m d, Op.write m "" d ∈ before → m ∈ used ∧ v m ≠ none

theorem Paired.observe [DiffLib] {b : Bool} {p : Profile} {v : String → Option Bytes} {used : List String} {before : List Op} {op : Op}
    (hp : Paired v used before) : Paired (specObserve b p op v).2 (usedAfter used op) (before ++ [op]) := by
  intro m d hm
  rcases List.mem_append.mp hm with hm | hm
  · obtain ⟨h1, h2⟩ := hp m d hm
    cases op with
    | exists_ n => exact ⟨h1, h2⟩
    | read n s => exact ⟨h1, h2⟩
    | write n s d' =>
      refine ⟨List.mem_cons_of_mem _ (List.mem_cons_of_mem _ h1), ?_⟩
      change (if m = n then some (image d') else if m = n ++ ".schema" then some (strBytes s) else v m) ≠ none
      split
      · simp
      · split
        · simp
        · exact h2
  · rw [List.mem_singleton] at hm
    subst hm
    refine ⟨List.mem_cons_self, ?_⟩
    change (if m = m then some (image d) else if m = m ++ ".schema" then some (strBytes "") else v m) ≠ none
    simp

theorem append_schema_inj {n m : String} (h : n ++ ".schema" = m ++ ".schema") : n = m := by
  have := congrArg String.toList h
  rw [String.toList_append, String.toList_append] at this
  exact String.toList_inj.mp (List.append_cancel_right this)

theorem specObserveAll_differ [DiffLib] {p : Profile} : ∀ (h before : List Op) (used : List String) (v : String → Option Bytes),
    (∀ n, n ∉ used → v n = none) → Blanks v before → Paired v used before → WriteOnce (fun _ => True) used h →
    (specObserveAll false p h v = specObserveAll true p h v ↔
      ∀ pre after n s m d, h = pre ++ .read n s :: after → Op.write m "" d ∈ before ++ pre → ¬ (n = m ∨ n = m ++ ".schema"))
  | [], before, used, v, _, _, _, _ => ⟨fun _ pre after n s m d h => by simp at h, fun _ => rfl⟩
  | op :: h, before, used, v, hu, hb, hp, hh => by
    have h2 : (specObserve true p op v).2 = (specObserve false p op v).2 := by cases op <;> rfl
    have ih := specObserveAll_differ (p := p) h (before ++ [op]) (usedAfter used op) (specObserve false p op v).2 (specObserve_used hu op)
      (hb.observe hu hh) hp.observe hh.tail
    have h1 := specObserve_differ (p := p) (v := v) (fun n hn => by
      obtain ⟨m, d, h1, h2⟩ := (hb _).mp hn
      rw [append_schema_inj h2]
      exact (hp m d h1).2) op
    have h3 : (∀ n s, op = .read n s → v n ≠ some [] ∧ v (n ++ ".schema") ≠ some []) ↔
        ∀ n s m d, op = .read n s → Op.write m "" d ∈ before → ¬ (n = m ∨ n = m ++ ".schema") := by
      constructor
      · rintro h n s m d he hm (h' | h')
        · exact (h n s he).2 ((hb _).mpr ⟨m, d, hm, by rw [h']⟩)
        · exact (h n s he).1 ((hb _).mpr ⟨m, d, hm, h'⟩)
      · intro h n s he
        constructor
        · intro hn
          obtain ⟨m, d, hm, h'⟩ := (hb _).mp hn
          exact h n s m d he hm (.inr h')
        · intro hn
          obtain ⟨m, d, hm, h'⟩ := (hb _).mp hn
          exact h n s m d he hm (.inl (append_schema_inj h'))
    simp only [specObserveAll, List.cons.injEq]
    rw [h2, h1, h3, ih]
    constructor
    · rintro ⟨a1, a2⟩ pre after n s m d he hm
      cases pre with
      | nil =>
        rw [List.append_nil] at hm
        exact a1 n s m d (List.cons.inj he).1 hm
      | cons q pre =>
        obtain ⟨he1, he2⟩ := List.cons.inj he
        subst he1
        exact a2 pre after n s m d he2 (by rw [List.append_assoc]; exact hm)
    · intro a
      refine ⟨fun n s m d he hm => a [] h n s m d (by rw [he]; rfl) (by rw [List.append_nil]; exact hm), fun pre after n s m d he hm => ?_⟩
      exact a (op :: pre) after n s m d (by rw [he]; rfl) (by rw [List.append_assoc] at hm; exact hm)

/-- C38 exactly: a history that writes every resource at most once cannot tell an empty memory storage from an empty directory if and only if
it never reads a resource that it has written with an empty schema (nor that schema as a resource). -/
theorem C38_exact [DiffLib] (p : Profile) (e : Endian) (wm : MemW) (wd : FileW) (om od : Obj) (h : List Op)
    (hm : Kind.Reachable .memory wm) (ham : Kind.alive .memory wm om) (hem : ∀ n, Kind.stored .memory wm om n = none)
    (hd : Kind.Reachable .disk wd) (hed : EmptyDir wd od.path) (hn : Kind.noFault .disk wd) (hh : WriteOnce (fun _ => True) [] h) :
    observeAll mem p e om h wm = observeAll file p e od h wd ↔ ¬ ReadsEmpty h := by
  obtain ⟨h1, h2⟩ := observe_both p e wm wd om od h hm ham hem hd hed hn hh
  rw [h1, h2, specObserveAll_differ h [] [] (fun _ => none) (fun _ _ => rfl) (fun n => ⟨fun h => (by cases h), fun ⟨_, _, h, _⟩ => (by cases h)⟩)
    (fun _ _ h => by cases h) hh]
  constructor
  · rintro h ⟨before, after, n, s, m, d, he, hw, hx⟩
    exact h before after n s m d he hw hx
  · intro h before after n s m d he hw hx
    exact h ⟨before, after, n, s, m, d, he, hw, hx⟩

theorem writeOnce_mono {S T : String → Prop} (hST : ∀ s, S s → T s) : ∀ (h : List Op) (used : List String), WriteOnce S used h → WriteOnce T used h
  | [], _, _ => trivial
  | .exists_ _ :: h, used, hh => ⟨hh.1, writeOnce_mono hST h used hh.2⟩
  | .read _ _ :: h, used, hh => ⟨hh.1, writeOnce_mono hST h used hh.2⟩
  | .write _ _ _ :: h, _, hh => ⟨hh.1, hST _ hh.2.1, hh.2.2.1, hh.2.2.2.1, hh.2.2.2.2.1, writeOnce_mono hST h _ hh.2.2.2.2.2⟩

theorem writeOnce_schema {S : String → Prop} : ∀ (h : List Op) (used : List String), WriteOnce S used h → ∀ n s d, Op.write n s d ∈ h → S s
  | [], _, _, _, _, _, hm => by cases hm
  | .exists_ _ :: h, used, hh, n, s, d, hm => by
    rcases List.mem_cons.mp hm with hm | hm
    · cases hm
    · exact writeOnce_schema h used hh.2 n s d hm
  | .read _ _ :: h, used, hh, n, s, d, hm => by
    rcases List.mem_cons.mp hm with hm | hm
    · cases hm
    · exact writeOnce_schema h used hh.2 n s d hm
  | .write _ _ _ :: h, _, hh, n, s, d, hm => by
    rcases List.mem_cons.mp hm with hm | hm
    · cases hm; exact hh.2.1
    · exact writeOnce_schema h _ hh.2.2.2.2.2 n s d hm

/-- C38 for non-empty schemas: a history that writes every resource at most once cannot tell an empty memory
storage from an empty directory; every call has the same result. -/
theorem C38_interchangeable_partial [DiffLib] (p : Profile) (e : Endian) (wm : MemW) (wd : FileW) (om od : Obj) (h : List Op)
    (hm : Kind.Reachable .memory wm) (ham : Kind.alive .memory wm om) (hem : ∀ n, Kind.stored .memory wm om n = none)
    (hd : Kind.Reachable .disk wd) (hed : EmptyDir wd od.path) (hn : Kind.noFault .disk wd) (hh : WriteOnce (· ≠ "") [] h) :
    observeAll mem p e om h wm = observeAll file p e od h wd := by
  refine (C38_exact p e wm wd om od h hm ham hem hd hed hn (writeOnce_mono (fun _ _ => trivial) h [] hh)).mpr ?_
  rintro ⟨before, after, n, s, m, d, rfl, h1, _⟩
  exact writeOnce_schema _ _ hh m "" d (List.mem_append_left _ h1) rfl

open StorageExample in
/-- Non-vacuity, both ways: empty schemas that are written and not read, and one that is read. -/
example [DiffLib] : observeAll mem .debug .little obj [.write "x" "" [1#8], .write "y" "s" [], .exists_ "x", .read "y" "s"] mem0 =
      observeAll file .debug .little ⟨0, "d".toList⟩ [.write "x" "" [1#8], .write "y" "s" [], .exists_ "x", .read "y" "s"] (disk0 []) ∧
    observeAll mem .debug .little obj [.write "x" "" [1#8], .read "x" "t"] mem0 ≠
      observeAll file .debug .little ⟨0, "d".toList⟩ [.write "x" "" [1#8], .read "x" "t"] (disk0 []) := by
  have hd : EmptyDir (disk0 []) "d".toList := ⟨fun n => rfl, fun n => by
      have hk : key "d".toList = [['d']] := by decide
      change decide (key "d".toList ++ [n] = [['d']]) = false
      rw [hk]; simp, fun i => rfl⟩
  constructor
  · refine (C38_exact .debug .little mem0 (disk0 []) obj ⟨0, "d".toList⟩ _ mem0_reachable (by change 0 < 1; decide) (fun _ => rfl)
      (disk0_reachable _ _) hd (disk0_noFault _) (by unfold WriteOnce WriteOnce WriteOnce WriteOnce WriteOnce; decide)).mpr ?_
    rintro ⟨before, after, n, s, m, d, he, hw, hx⟩
    match before, he with
    | [], he => cases he
    | [_], he => cases he
    | [_, _], he => cases he
    | [_, _, _], he =>
      cases he
      simp only [List.mem_cons, Op.write.injEq, List.not_mem_nil, or_false, reduceCtorEq] at hw
      rcases hw with ⟨rfl, _⟩ | ⟨_, h, _⟩
      · exact absurd hx (by decide)
      · exact absurd h (by decide)
    | _ :: _ :: _ :: _ :: _, he =>
      have := congrArg List.length he
      simp at this
  · refine fun h => (C38_exact .debug .little mem0 (disk0 []) obj ⟨0, "d".toList⟩ _ mem0_reachable (by change 0 < 1; decide) (fun _ => rfl)
      (disk0_reachable _ _) hd (disk0_noFault _) (by unfold WriteOnce WriteOnce WriteOnce; decide)).mp h ?_
    exact ⟨[.write "x" "" [1#8]], [], "x", "t", "x", [1#8], rfl, by simp, .inl rfl⟩

open StorageExample in
/-- An empty directory below `d`, and a history with all kinds of calls. -/
example [DiffLib] : observeAll mem .debug .little obj
      [.read "x" "s", .write "x" "s" [1#8], .read "x" "s", .exists_ "x", .read "x" "t", .exists_ "y"] mem0 =
    observeAll file .debug .little ⟨0, "d/e".toList⟩
      [.read "x" "s", .write "x" "s" [1#8], .read "x" "s", .exists_ "x", .read "x" "t", .exists_ "y"] (disk0 []) := by
  have hk : key "d/e".toList = [['d'], ['e']] := by decide
  refine C38_interchangeable_partial _ _ _ _ _ _ _ mem0_reachable (by change 0 < 1; decide) (fun _ => rfl) (disk0_reachable _ _)
    ⟨fun n => rfl, fun n => ?_, fun i => rfl⟩ (disk0_noFault _) ?_
  · change decide (key "d/e".toList ++ [n] = [['d']]) = false
    rw [hk]; simp
  · unfold WriteOnce WriteOnce WriteOnce WriteOnce WriteOnce WriteOnce WriteOnce
    decide

open StorageExample in
/-- Such a history has real results. -/
example : @observeAll naiveDiff file .debug .little ⟨0, "d/e".toList⟩
      [.read "x" "s", .write "x" "s" [1#8], .read "x" "s", .exists_ "x", .exists_ "y"] (disk0 []) =
    [.failed (.io .notFound "x"), .wrote, .bytes [1#8], .exists_ true, .exists_ false] := by decide

end Flatdata
