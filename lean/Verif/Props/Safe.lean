import Verif.Proofs.SafeArchive
import Verif.Props.Succeeds
/-!
# C48: memory safety of client programs

What a program has to respect is `Call.Guard`, what it may rely on is `Call.Gives` (Spec/Safe).
-/
namespace Flatdata
open Spec Spec.Kind StorageExample VecExample MvExample BuildExample

section
variable [DiffLib] {k : Kind} {p : Profile} {e : Endian}

omit [DiffLib] in
theorem safe_pure {α : Type} {P : k.backend.W → Prop} {x : Out α} {Q : α → k.backend.W → Prop} (h : ∀ w, P w → x ≠ .ub)
    (hq : ∀ a w, P w → x = .ok a → Q a w) : Safe k (Steps k) P (Act.lift x : Act k.backend.W Empty α) Q := by
  refine .given (c := x ≠ .ub) h fun hx => (Safe.lift hx).mono (fun _ h => h) fun a w hw => hq a w hw.1 hw.2

omit [DiffLib] in
theorem stable_writable {o : k.backend.Obj} {name : String} : Stable k (Still k) (fun w => k.alive w o ∧ k.writable w o name) := stable_free

/-- Every function of the library, called as `Call.Guard` demands. -/
theorem call_safe {β : Type} (c : Call k.backend β) :
    Safe k (Steps k) (fun w => c.Guard k w) (c.run p e) (fun b w => c.Gives k w b) := by
  cases c with
  | get f mem => exact safe_pure (fun _ ⟨_, hf, g⟩ => get_ne_ub g hf) fun _ _ _ _ => trivial
  | edit S data pos ops => exact safe_pure (fun _ ⟨a, b, c⟩ => (writeAt_safe a b c).1) fun _ _ ⟨a, b, c⟩ h => (writeAt_safe a b c).2 _ h
  | structEq S a b => exact safe_pure (fun _ ⟨x, y⟩ => eqFields_ne_ub x y _ fun _ => id) fun _ _ _ _ => trivial
  | structDebug S mem => exact safe_pure (fun _ g => structDebug_ne_ub g) fun _ _ _ _ => trivial
  | bufDebug S data => exact safe_pure (fun _ g => bufDebug_ne_ub g) fun _ _ _ _ => trivial
  | vecWithLen size n => exact safe_pure (fun _ _ => withLen_ne_ub) fun _ _ _ _ => trivial
  | vecLen size data => exact safe_pure (fun _ _ => vecLen_ne_ub) fun _ _ _ _ => trivial
  | vecReserve size data n => exact safe_pure (fun _ _ => reserve_ne_ub) fun _ _ _ _ => trivial
  | vecIsEmpty size data => exact safe_pure (fun _ _ => vecIsEmpty_ne_ub) fun _ _ _ _ => trivial
  | vecAsBytes data => exact safe_pure (fun _ _ => asBytes_ne_ub) fun _ _ _ _ => trivial
  | vecGrow size data => exact safe_pure (fun _ _ => vecGrow_ne_ub) fun _ _ _ h a b c d => vecGrow_gives h a b c d
  | vecAt size data i => exact safe_pure (fun _ _ => vecAt_ne_ub) fun _ _ _ h a b => vecAt_gives h a b
  | vecAtMut size data i => exact safe_pure (fun _ _ => vecAtMut_ne_ub) fun _ _ _ h a b => vecAtMut_gives h a b
  | vecDebug S data => exact safe_pure (fun _ g => vecDebug_ne_ub g) fun _ _ _ _ => trivial
  | viewAt size data i => exact safe_pure (fun _ _ => viewAt_ne_ub) fun _ _ _ h a b => viewAt_gives h a b
  | viewSlice size data a b => exact safe_pure (fun _ _ => viewSlice_ne_ub) fun _ _ _ _ => trivial
  | viewNext size view => exact safe_pure (fun _ _ => viewNext_ne_ub) fun _ _ _ h a => viewNext_gives h a
  | viewNextBack size view => exact safe_pure (fun _ _ => viewNextBack_ne_ub) fun _ _ _ h a => viewNextBack_gives h a
  | viewDebug S name view => exact safe_pure (fun _ g => viewDebug_ne_ub g) fun _ _ _ _ => trivial
  | elemEq x y => exact safe_pure (fun _ g => elemEq_ne_ub g) fun _ _ _ _ => trivial
  | elemDebug x => exact safe_pure (fun _ g => structDebug_ne_ub g) fun _ _ _ _ => trivial
  | itemDebug V data => exact safe_pure (fun _ g => itemDebug_ne_ub g) fun _ _ _ _ => trivial
  | multiLen V v => exact safe_pure (fun _ _ => multiLen_ne_ub) fun _ _ _ _ => trivial
  | multiIsEmpty V v => exact safe_pure (fun _ _ => multiIsEmpty_ne_ub) fun _ _ _ _ => trivial
  | multiAt V v i => exact safe_pure (fun _ g => multiAt_ne_ub g) fun _ _ _ _ => trivial
  | multiSlice V v a b => exact safe_pure (fun _ _ => multiSlice_ne_ub) fun _ _ _ _ => trivial
  | multiNext V v => exact safe_pure (fun _ g => (multiNext_safe g).1) fun _ _ _ _ => trivial
  | multiNextBack V v => exact safe_pure (fun _ g => multiNextBack_ne_ub g) fun _ _ _ _ => trivial
  | multiDebug V name v => exact safe_pure (fun _ g => multiDebug_ne_ub g.1 g.2) fun _ _ _ _ => trivial
  | write o name schema data =>
    exact (safe_storageWrite stable_writable fun _ h => h).attempt.of_still.mono (fun _ h => h) fun _ _ _ => trivial
  | read o name schema =>
    exact (safe_storageRead stable_alive fun _ h => h).attempt.mono (fun _ h => h) fun _ _ h s hs => (h s hs).2
  | createArchive o signature schema =>
    exact (safe_createArchive stable_writable fun _ h => h).attempt.of_still.mono (fun _ h => h) fun _ _ _ => trivial
  | handleNew o name schema s =>
    exact (safe_tryNew (stable_alive.and stable_open) fun _ h => h).attempt.of_still.mono (fun _ h => h) fun _ _ h x hx => (h x hx).2
  | handleWrite h data =>
    exact (safe_handleWrite stable_handle fun _ h => h).attempt.of_still.mono (fun _ h => h) fun _ _ h x hx => (h x hx).2
  | handleClose h => exact (safe_handleClose stable_handle fun _ h => h).mono (fun _ h => h) fun _ _ h => h.2
  | createVector o name schema =>
    exact (safe_createVector stable_writable fun _ h => h).attempt.of_still.mono (fun _ h => h) fun _ _ h x hx => (h x hx).2
  | vectorGrow size v =>
    exact (safe_vectorGrow stable_handle fun _ h => h).attempt.of_still.mono (fun _ h => h) fun _ _ h x hx => (h x hx).2
  | vectorClose v => exact (safe_vectorClose stable_handle fun _ h => h).attempt.mono (fun _ h => h) fun _ _ h x hx => (h x hx).2
  | createMulti o name schema =>
    refine (safe_createMulti (J := fun w => k.alive w o ∧ k.writable w o name ∧ k.writable w o (name ++ "_index"))
      (stable_alive.and ((stable_unmapped.and stable_unmapped).and (stable_unmapped.and stable_unmapped)))
      fun _ h => ⟨⟨h.1, h.2.1⟩, h.1, h.2.2⟩).attempt.of_still.mono (fun _ h => h) fun _ _ h x hx => (h x hx).2
  | multiGrow V v =>
    exact .given (c := GoodIndex V v.index.data) (fun _ h => h.1) fun g =>
      (safe_multiGrow g stable_multi fun _ h => h).of_still.mono (fun _ h => h.2) fun _ _ h => h.2
  | itemAdd t size data => exact safe_pure (fun _ _ => builderAdd_ne_ub) fun _ _ _ h a b => builderAdd_gives h a b
  | multiClose V v =>
    exact .given (c := GoodIndex V v.index.data) (fun _ h => h.1) fun g =>
      (safe_multiClose g stable_multi fun _ h => h).attempt.mono (fun _ h => h.2) fun _ _ h x hx => (h x hx).2
  | openArchive o D => exact (safe_openArchive D stable_alive fun _ h => h).attempt.mono (fun _ h => h) fun _ _ h x hx => (h x hx).2
  | archiveDebug addr D a =>
    intro w hr hi hg
    exact safe_pure (P := fun w' => w' = w) (fun _ _ => archiveDebug_ne_ub hi D a hg.1 hg.2) (fun _ _ _ _ => trivial) w hr hi rfl
  | builderNew o D =>
    exact (safe_builderNew stable_writable fun _ h => h).attempt.of_still.mono (fun _ h => h) fun _ _ h x hx => (h x hx).2
  | builderSub o name D => exact safe_builderSub.attempt.of_still.mono (fun _ h => h) fun _ _ h x hx => h x hx
  | setStruct o r S item =>
    refine .given (c := S.size ≤ item.length) (fun _ h => h.2.2) fun hl => ?_
    change Safe k (Steps k) _ (Act.attempt (setStruct k.backend p e o r S item)) _
    unfold setStruct
    rw [if_neg (by omega)]
    exact (safe_storageWrite stable_writable fun _ h => h).attempt.of_still.mono (fun _ h => ⟨h.1, h.2.1⟩) fun _ _ _ => trivial
  | setVector o r view =>
    exact (safe_storageWrite stable_writable fun _ h => h).attempt.of_still.mono (fun _ h => h) fun _ _ _ => trivial
  | setRaw o r data =>
    exact (safe_storageWrite stable_writable fun _ h => h).attempt.of_still.mono (fun _ h => h) fun _ _ _ => trivial
  | startVector o r =>
    exact (safe_createVector stable_writable fun _ h => h).attempt.of_still.mono (fun _ h => h) fun _ _ h x hx => (h x hx).2
  | startMulti o r =>
    refine (safe_createMulti (J := fun w => k.alive w o ∧ k.writable w o r.name ∧ k.writable w o (r.name ++ "_index"))
      (stable_alive.and ((stable_unmapped.and stable_unmapped).and (stable_unmapped.and stable_unmapped)))
      fun _ h => ⟨⟨h.1, h.2.1⟩, h.1, h.2.2⟩).attempt.of_still.mono (fun _ h => h) fun _ _ h x hx => (h x hx).2
  | other x => exact fun w _ _ hg => ⟨hg.1, hg.2.1, hg.2.2, fun _ _ => trivial⟩

/-- C48 for one call: from any state that a process can be in, with all mapped files whole, a function called as `Call.Guard`
demands performs no undefined access, whatever fails on the way; mapped files stay whole, and the result is as `Call.Gives` says. -/
theorem C48_calls (k : Kind) (p : Profile) (e : Endian) {β : Type} (c : Call k.backend β) (w w' : k.backend.W) (r : Res Empty β)
    (hr : k.Reachable w) (hi : k.intact w) (hg : c.Guard k w) (h : c.run p e w = (r, w')) :
    r ≠ .ub ∧ k.Steps w w' ∧ k.intact w' ∧ ∀ b, r = .ok b → c.Gives k w' b := by
  have := call_safe (p := p) (e := e) c w hr hi hg
  rw [h] at this
  exact this

/-- The rule to show that a program respects the guards: what it may rely on after a call is `Call.Gives`. -/
theorem C48_rule (k : Kind) (p : Profile) (e : Endian) {α β : Type} (c : Call k.backend β) (next : β → Client k.backend α)
    (w : k.backend.W) (hr : k.Reachable w) (hi : k.intact w) (hg : c.Guard k w)
    (hn : ∀ b w', k.Reachable w' → k.Steps w w' → k.intact w' → c.Gives k w' b → (next b).Guarded k p e w') :
    (Client.call c next).Guarded k p e w := by
  refine ⟨hg, fun b w' h => ?_⟩
  obtain ⟨_, h1, h2, h3⟩ := C48_calls k p e c w w' _ hr hi hg h
  exact hn b w' (hr.steps h1) h1 h2 (h3 b rfl)

theorem client_safe {α : Type} : ∀ (client : Client k.backend α) (w : k.backend.W), k.Reachable w → k.intact w → client.Guarded k p e w →
    (client.run p e w).1 ≠ .ub ∧ k.Steps w (client.run p e w).2 ∧ k.intact (client.run p e w).2
  | .ret _, w, _, hi, _ => ⟨nofun, .refl w, hi⟩
  | .call c next, w, hr, hi, hg => by
    rcases hc : c.run p e w with ⟨r, w'⟩
    obtain ⟨h1, h2, h3, _⟩ := C48_calls k p e c w w' r hr hi hg.1 hc
    change ((c.run p e >>= fun b => (next b).run p e) w).1 ≠ .ub ∧ k.Steps w ((c.run p e >>= fun b => (next b).run p e) w).2 ∧
      k.intact ((c.run p e >>= fun b => (next b).run p e) w).2
    cases r with
    | ok b =>
      rw [Act.bind_ok hc]
      obtain ⟨g1, g2, g3⟩ := client_safe (next b) w' (hr.steps h2) h3 (hg.2 b w' hc)
      exact ⟨g1, h2.trans g2, g3⟩
    | err x => exact x.elim
    | panic => rw [Act.bind_panic hc]; exact ⟨nofun, h2, h3⟩
    | ub => exact absurd rfl h1

/-- C48: a program that respects the guards whenever it calls a function of the library performs no undefined access. -/
theorem C48_programs (k : Kind) (p : Profile) (e : Endian) {α : Type} (client : Client k.backend α) (w w' : k.backend.W)
    (r : Res Empty α) (hr : k.Reachable w) (hi : k.intact w) (hg : client.Guarded k p e w) (h : client.run p e w = (r, w')) :
    r ≠ .ub ∧ k.intact w' := by
  have := client_safe client w hr hi hg
  rw [h] at this
  exact ⟨this.1, this.2.2⟩

end

/-- C48: whatever the library has handed out can be followed at any later time as long as mapped files are whole. -/
theorem C48_views (k : Kind) (w w' : k.backend.W) (s : Slice k.backend.Base) (hr : k.Reachable w) (hs : k.Steps w w')
    (hi : k.intact w') (h : k.held w s) : ∃ b, k.backend.deref w' s = .ok b ∧ b.length = s.len :=
  deref_held hi (hs.held hr h)

/-- C48: what the library has returned can be used at any later time. -/
theorem C48_stable (k : Kind) (w w' : k.backend.W) (hr : k.Reachable w) (hs : k.Steps w w') :
    (∀ o, k.alive w o → k.alive w' o) ∧ (∀ h : Handle k.backend, HandleFine w h → HandleFine w' h) ∧
      (∀ v : MultiVec k.backend, MultiFine w v → MultiFine w' v) ∧ (∀ s, k.held w s → k.held w' s) ∧
      ∀ D a, ArchiveFine w D a → ArchiveFine w' D a :=
  ⟨fun _ => hs.alive, fun _ => stable_handle (T := Kind.Steps k) w w' hr hs, fun _ => stable_multi (T := Kind.Steps k) w w' hr hs,
    fun _ => hs.held hr, fun D a => ArchiveFine.steps hr hs D a⟩

/-- At the start of a process no file is mapped: all of them are whole. -/
theorem C48_initial (k : Kind) (w : k.backend.W) (h : k.initial w) : k.intact w ∧ ∀ l, k.unmapped w l := by
  cases k with
  | memory => exact ⟨trivial, fun _ => trivial⟩
  | disk =>
    constructor
    · intro i p l n hm; rw [h.1] at hm; cases hm
    · intro l i p n hm; rw [h.1] at hm; cases hm

/-- Non-vacuity of `C48_calls`, `C48_views` and `C48_stable`: a resource is read at the start of a process; what was returned can be
followed after any further steps that leave the file whole. -/
example [DiffLib] (p : Profile) (e : Endian) (files : List (Key × Bytes)) (fault : Nat → Option Nat) (r : Except RErr (Slice (Kind.backend .disk).Base))
    (w1 w2 : (Kind.backend .disk).W)
    (h : (Call.read (B := Kind.backend .disk) objD "x" "s").run p e (disk0 files fault) = (.ok r, w1)) (hs : Kind.disk.Steps w1 w2)
    (hi : Kind.disk.intact w2) (s : Slice (Kind.backend .disk).Base) (hr : r = .ok s) :
    ∃ b, (Kind.backend .disk).deref w2 s = .ok b ∧ b.length = s.len := by
  have h0 := C48_initial .disk (disk0 files fault) ⟨fun _ _ => rfl, rfl⟩
  have hr0 := disk0_reachable files fault
  obtain ⟨_, h1, _, h3⟩ := C48_calls .disk p e (.read objD "x" "s") _ w1 _ hr0 h0.1 Nat.zero_lt_one h
  exact C48_views .disk w1 w2 s (hr0.steps h1) hs hi (h3 _ rfl s hr)

namespace SafeExample

/-- A program: writes a vector with one struct, reads it, and shows it. -/
def record (k : Kind) (o : k.backend.Obj) (S : StructDef) (ops : List HandleOp) : Client k.backend String :=
  .call (.createVector o "x" "s") fun r => match r with
    | .error _ => .ret "create"
    | .ok v => .call (.vectorGrow S.size v) fun r => match r with
      | .error _ => .ret "grow"
      | .ok (v, pos) => .call (.edit S v.data pos ops) fun d => .call (.vectorClose { v with data := d }) fun r => match r with
        | .error _ => .ret "close"
        | .ok s => .call (.other (k.backend.load s)) fun data =>
          if data.length < 2 ^ 63 then .call (.viewAt S.size data 0) fun x => .call (.structDebug S x) fun t => .ret t
          else .ret "large"

/-- It respects the guards, on both storages, in all states, and whatever fails. -/
theorem record_guarded [DiffLib] (k : Kind) (p : Profile) (e : Endian) (o : k.backend.Obj) (S : StructDef) (ops : List HandleOp)
    (hg : AlwaysGood S) (hl : Legible S) (hs : S.size < 2 ^ 63) (hops : ∀ op ∈ ops, OpFine S op) (w : k.backend.W) (hr : k.Reachable w)
    (hi : k.intact w) (ha : k.alive w o) (hw : k.writable w o "x") : (record k o S ops).Guarded k p e w := by
  refine C48_rule k p e _ _ w hr hi ⟨ha, hw⟩ fun r w1 hr1 _ i1 g1 => ?_
  cases r with
  | error x => trivial
  | ok v =>
    obtain ⟨f1, l1⟩ := g1 v rfl
    refine C48_rule k p e _ _ w1 hr1 i1 f1 fun r w2 hr2 _ i2 g2 => ?_
    cases r with
    | error x => trivial
    | ok x =>
      obtain ⟨v2, pos⟩ := x
      obtain ⟨f2, _, l2⟩ := g2 _ rfl
      refine C48_rule k p e _ _ w2 hr2 i2 ⟨hl.wf, l2 l1 hs, hops⟩ fun d w3 hr3 st3 i3 _ => ?_
      refine C48_rule k p e _ _ w3 hr3 i3 (stable_handle (T := Kind.Steps k) w2 w3 hr2 st3 f2) fun r w4 hr4 _ i4 g4 => ?_
      cases r with
      | error x => trivial
      | ok s =>
        have gl := safe_load (E := Empty) w4 hr4 i4 (g4 s rfl)
        refine C48_rule k p e _ _ w4 hr4 i4 ⟨gl.1, gl.2.1.1, gl.2.2.1⟩ fun data w5 hr5 _ i5 _ => ?_
        split
        · next hd =>
          refine C48_rule k p e _ _ w5 hr5 i5 trivial fun x w6 _ _ _ g6 => ?_
          exact ⟨hg x (g6 hs hd), fun _ _ _ => trivial⟩
        · trivial

theorem meta_legible : Legible Coappearances.Meta where
  wf := wf_of_plain (by decide) (by decide)
  straight := by decide
  narrow := by decide

theorem meta_always : AlwaysGood Coappearances.Meta := fun _ h => ⟨meta_legible, h, by simp [EnumsOK, Coappearances.Meta, Field.plain]⟩

def metaOps : List HandleOp := [.set (.plain "title_ref" .u32 0 32) 5, .set (.plain "author_ref" .u32 32 32) 7]

/-- C48 applies to the program: with the struct `Meta` of the test archive, on disk, whatever fails. -/
example (p : Profile) (e : Endian) (files : List (Key × Bytes)) (fault : Nat → Option Nat) :
    (@Client.run file naiveDiff p e _ (record .disk objD Coappearances.Meta metaOps) (disk0 files fault)).1 ≠ .ub := by
  have hr := disk0_reachable files fault
  have h0 := C48_initial .disk (disk0 files fault) ⟨fun _ _ => rfl, rfl⟩
  rcases h : @Client.run file naiveDiff p e _ (record .disk objD Coappearances.Meta metaOps) (disk0 files fault) with ⟨r, w'⟩
  exact (@C48_programs naiveDiff .disk p e _ (record .disk objD Coappearances.Meta metaOps) (disk0 files fault) w' r hr h0.1
    (@record_guarded naiveDiff .disk p e objD _ metaOps meta_always meta_legible (by decide) (by simp [metaOps, OpFine, Coappearances.Meta])
      _ hr h0.1 Nat.zero_lt_one ⟨h0.2 _, h0.2 _⟩) h).1

/-- It works if nothing fails. -/
example : (@Client.run file naiveDiff .debug .little _ (record .disk objD Coappearances.Meta metaOps) (disk0 [])).1 =
    .ok "Meta { title_ref: 5, author_ref: 7 }" := by
  decide +kernel

/-! The guards that are no matter of types are needed. -/

/-- Showing a struct that is shorter than its type (C39). -/
example : (@Call.run mem naiveDiff .release .little _ (.structDebug Coappearances.Meta (List.replicate 7 1#8)) mem0).1 = .ub := by decide

/-- Writing through the reference that `at_mut` returns beyond the length (C11). -/
example : (@Client.run mem naiveDiff .debug .little _ (.call (.vecWithLen 10 1) fun d => .call (.vecAtMut 10 d 1) fun pos =>
    .call (.edit Coappearances.Invariants d pos [.set (.plain "max_degree" .u32 0 32) 1]) fun d => .ret d.length) mem0).1 = .ub := by
  decide

/-- Reads a resource, writes it, and looks at what it has read. -/
def rewrite : Client file Nat :=
  .call (.read objD "x" "s") fun r => match r with
    | .error _ => .ret 0
    | .ok s => .call (.write objD "x" "s" [1#8]) fun _ => .call (.other (file.load s)) fun d => .ret d.length

/-- The resource exists; from some time on, no system call succeeds. -/
def full : FileW :=
  disk0 [([['d'], ['x']], image [7#8]), ([['d'], "x.schema".toList], strBytes "s")] fun t => if 8 ≤ t then some 0 else none

/-- Writing a resource that is mapped: if writing fails, the slice of the earlier reader is no longer there (C35). -/
example : (@Client.run file naiveDiff .debug .little _ rewrite full).1 = .ub := by decide +kernel

/-- Reading an enum field that holds no variant (C09). -/
example : (@Call.run mem naiveDiff .debug .little _ (.get enumField [1#8]) mem0).1 = .ub := by decide

end SafeExample

end Flatdata
