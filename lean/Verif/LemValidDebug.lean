import Verif.LemValidRun
import Verif.Cli
/-!
# The debugger, the interactive shell and the program `fuel` keep a state valid
-/

set_option linter.unusedSectionVars false
set_option linter.unusedSimpArgs false
set_option linter.unusedVariables false
set_option synthInstance.maxHeartbeats 20000

namespace Fuel

open Spec

variable [World] {w : Lay}

instance : HasGood (Except Exn Bool) := trivialGood _
instance : TrivGood (Except Exn Bool) := ⟨fun _ _ => trivial⟩
instance : HasGood (Except Exn Unit) := trivialGood _
instance : TrivGood (Except Exn Unit) := ⟨fun _ _ => trivial⟩
instance : HasGood (Except Exn (Option Variant)) :=
  ⟨fun w x => ∀ a, x = .ok a → HasGood.good w a, fun h g a e => HasGood.mono h (g a e)⟩
instance : HasGood Dbg := trivialGood _
instance : TrivGood Dbg := ⟨fun _ _ => trivial⟩
instance : HasGood Bp := trivialGood _
instance : TrivGood Bp := ⟨fun _ _ => trivial⟩
instance : HasGood Ctl := trivialGood _
instance : TrivGood Ctl := ⟨fun _ _ => trivial⟩
instance : HasGood DS := ⟨fun w d => w.k d.cur = some .scope, fun h g => h.grows _ _ g⟩
instance (d : DS) [h : Good w d] : Is w d.cur .scope := ⟨h.ok⟩
instance (d : Dbg) (c : Nat) (s : Str) [h : Is w c .scope] : Good w (⟨d, c, s⟩ : DS) := ⟨h.ok⟩

/-- The computation keeps the state valid, whatever its result. -/
theorem tryM_safe {α : Type} [HasGood α] [HasGood (Except Exn α)] {m : M α} (h : Safe w m)
    (h1 : ∀ w' a, Good w' a → Good w' (Except.ok a : Except Exn α)) (h2 : ∀ w' e, Good w' (Except.error e : Except Exn α)) : Safe w (tryM m) := ⟨fun s hs => by
  have := h.ok s hs
  unfold tryM
  cases hm : m s with
  | ok a s' => rw [hm] at this; obtain ⟨w', a, b, c⟩ := this; exact ⟨w', a, b, h1 _ _ c⟩
  | fail f s' =>
    rw [hm] at this
    obtain ⟨w', a, b⟩ := this
    cases f with
    | exn e => exact ⟨w', a, b, h2 _ _⟩
    | _ => exact ⟨w', a, b⟩⟩
instance (m : M Bool) [h : Safe w m] : Safe w (tryM m) := tryM_safe h (fun _ _ _ => inferInstance) fun _ _ => inferInstance
instance (m : M Unit) [h : Safe w m] : Safe w (tryM m) := tryM_safe h (fun _ _ _ => inferInstance) fun _ _ => inferInstance
instance (m : M (Option Variant)) [h : Safe w m] : Safe w (tryM m) :=
  tryM_safe h (fun _ _ h => ⟨fun _ e => by cases e; exact h.ok⟩) fun _ _ => ⟨fun _ e => by cases e⟩

theorem condHolds_safe (n : Nat) (ev : Str → M (Option Variant)) (b : Bp) (h : ∀ c, Safe w (ev c)) : Safe w (condHolds n ev b) := by
  unfold condHolds
  have h1 : Safe w (do
      let v ← derefV (← ev b.cond)
      M.rd fun st => v.boolValue st n) := by
    have := h b.cond
    safe
  safe
theorem hitsBreakpoint_safe (n : Nat) (ev : Str → M (Option Variant)) (line : Nat) (module : Str) (h : ∀ c, Safe w (ev c)) : ∀ l,
    Safe w (hitsBreakpoint n ev line module l)
  | [] => by unfold hitsBreakpoint; infer_instance
  | b :: t => by
    have := hitsBreakpoint_safe n ev line module h t
    have := condHolds_safe n ev b h
    unfold hitsBreakpoint
    safe
instance (m : StepMode) (sid : Nat) : Safe w (stopsHere m sid) := by
  unfold stopsHere
  split
  · infer_instance
  · refine Safe.rd_bind fun s a _ _ => ?_
    infer_instance

theorem needsBreak_safe (n : Nat) (ev : Str → M (Option Variant)) (d : Dbg) (sid line : Nat) (h : ∀ w', Ext w w' → ∀ c, Safe w' (ev c)) :
    Safe w (needsBreak n ev d sid line) := by
  unfold needsBreak
  have h0 : ∀ w', Ext w w' → ∀ l m, Safe w' (hitsBreakpoint n ev line m l) := fun w' hx l m => hitsBreakpoint_safe n ev line m (h w' hx) l
  have h1 : ∀ w1, Ext w w1 → ∀ a : Bool, Safe w1 (do
      let module ← M.get fun s => (s.scopes sid).module
      let hit ← if a then pure true else hitsBreakpoint n ev line module d.bps
      if hit then pure ({ d with stop := false }, true) else pure (d, false)) := fun w1 hx a => by
    refine Safe.get_bind fun s _ => ?_
    cases a
    · refine Safe.bind (h0 w1 hx _ _) fun w2 b h2 _ => ?_
      dsimp only
      split <;> infer_instance
    · exact inferInstanceAs (Safe w1 (Pure.pure ({ d with stop := false }, true)))
  cases d.stop
  · exact h1 w (.refl w) false
  · exact Safe.bind inferInstance fun w1 a hx _ => h1 w1 hx a
instance : Safe w readLine := by
  unfold readLine
  refine Safe.get_bind fun s _ => ?_
  safe
theorem askClear_safe : ∀ {w} k, Safe w (askClear k)
  | w, 0 => by unfold askClear; infer_instance
  | w, k + 1 => by
    have hr := fun w => askClear_safe (w := w) k
    unfold askClear
    safe
    all_goals exact hr _
instance (k : Nat) : Safe w (askClear k) := askClear_safe k
instance (d : Dbg) (cmd : Str) : Safe w (clearCommand d cmd) := by
  unfold clearCommand
  refine Safe.rd_bind fun _ a _ _ => ?_
  dsimp only
  split
  · safe
  · refine Safe.rd_bind fun _ b _ _ => ?_
    safe
theorem showBreakpoints_safe : ∀ {w} l n, Safe w (showBreakpoints n l)
  | w, [], n => by unfold showBreakpoints; infer_instance
  | w, b :: t, n => by
    have hr := fun w => showBreakpoints_safe (w := w) t (n + 1)
    unfold showBreakpoints
    safe
    all_goals exact hr _
instance (l : List Bp) (n : Nat) : Safe w (showBreakpoints n l) := showBreakpoints_safe l n
theorem showSource_safe (bps : List Bp) (module : Str) (cur : Nat) : ∀ {w} l n, Safe w (showSource bps module cur n l)
  | w, [], n => by unfold showSource; infer_instance
  | w, b :: t, n => by
    have hr := fun w => showSource_safe bps module cur (w := w) t (n + 1)
    unfold showSource
    safe
    all_goals exact hr _
instance (bps : List Bp) (module : Str) (cur : Nat) (l : List Str) (n : Nat) : Safe w (showSource bps module cur n l) := showSource_safe _ _ _ l n
theorem dumpFns_safe {n : Nat} {sel : FnW → Bool} {info : FnW → R Str} : ∀ {w} {l : List (Str × Ptr)}, Good w l → Safe w (dumpFns n sel info l)
  | w, [], _ => by unfold dumpFns; infer_instance
  | w, (k, p) :: t, h => by
    have hr := fun w h => dumpFns_safe (n := n) (sel := sel) (info := info) (w := w) (l := t) h
    unfold dumpFns
    safe
    all_goals exact hr _ inferInstance
instance (n : Nat) (sel : FnW → Bool) (info : FnW → R Str) (l : List (Str × Ptr)) [h : Good w l] : Safe w (dumpFns n sel info l) := dumpFns_safe h
theorem dumpHelp_safe {n : Nat} : ∀ {w} {l : List (Str × Ptr)}, Good w l → Safe w (dumpHelp n l)
  | w, [], _ => by unfold dumpHelp; infer_instance
  | w, (k, p) :: t, h => by
    have hr := fun w h => dumpHelp_safe (n := n) (w := w) (l := t) h
    unfold dumpHelp
    safe
    all_goals exact hr _ inferInstance
instance (n : Nat) (l : List (Str × Ptr)) [h : Good w l] : Safe w (dumpHelp n l) := dumpHelp_safe h
instance (s : St) [Ok w s] (key : Str) (g : Nat) [Is w g .scope] : Good w (metaEntries s key g) := by
  unfold metaEntries
  split
  · rename_i i m e
    have h : Good w (Ptr.mk i (.scope m)) := Good.some_inv (Good.of_eq e inferInstance)
    have := h.is.scope
    infer_instance
  · infer_instance
theorem dumpModules_safe {n : Nat} {showMod : FnW → R Str} : ∀ {w} {l : List (Str × Ptr)}, Good w l → Safe w (dumpFunctions.go n showMod l)
  | w, [], _ => by unfold dumpFunctions.go; infer_instance
  | w, (k, p) :: t, h => by
    have hr := fun w h => dumpModules_safe (n := n) (showMod := showMod) (w := w) (l := t) h
    unfold dumpFunctions.go
    safe
    all_goals exact hr _ inferInstance
instance (n : Nat) (showMod : FnW → R Str) (l : List (Str × Ptr)) [h : Good w l] : Safe w (dumpFunctions.go n showMod l) := dumpModules_safe h
instance (n g : Nat) [Is w g .scope] : Safe w (dumpFunctions n g) := by
  unfold dumpFunctions
  safe
theorem writeLines_safe : ∀ {w} l, Safe w (writeLines l)
  | w, [] => by unfold writeLines; infer_instance
  | w, b :: t => by
    have hr := fun w => writeLines_safe (w := w) t
    unfold writeLines
    safe
    all_goals exact hr _
instance (l : List Str) : Safe w (writeLines l) := writeLines_safe l
instance : Safe w showVersion := inferInstanceAs (Safe w (writeLines _))
instance : Safe w showAbout := by
  unfold showAbout
  safe
instance (r : Rec) [SafeRec r] (fname cmd : Str) (d : DS) (g : Nat) [Good w d] [Is w g .scope] : Safe w (docCommand r fname cmd d g) := by
  unfold docCommand
  safe
instance (r : Rec) [SafeRec r] (cmd : Str) (d : DS) [Good w d] : Safe w (evalCommand r cmd d) := by
  unfold evalCommand
  have h1 : Safe w (do
      let module ← M.get fun s => (s.scopes d.cur).module
      let v ← derefV (← lispEval r cmd d.cur module false false)
      let t ← M.rd fun st => varStr st r.n v
      let l ← M.lift (format c!"result={0}" t)
      writeLine l) := by
    safe
  safe

theorem Good.prev {sc : Scope} (h : Good w sc) : IsO w sc.prev := ⟨fun c e => ⟨h.ok.prev c e⟩⟩
instance (s : St) [h : Ok w s] (i : Nat) [g : Is w i .scope] : IsO w (s.scopes i).prev := Good.prev inferInstance

instance (r : Rec) [SafeRec r] (top : Nat) (b : Bool) (cmd : Str) (d : DS) [hd : Good w d] [Is w top .scope] : Safe w (dbgCommand r top b cmd d) := by
  unfold dbgCommand
  refine Safe.global_bind inferInstance fun g hg => ?_
  cases dcmd cmd <;> dsimp only
  case up =>
    refine Safe.get_bind fun s hs => ?_
    have h : IsO w (s.scopes d.cur).next := inferInstance
    split
    · rename_i x e
      have := h.ok x e
      infer_instance
    · infer_instance
  case down =>
    refine Safe.get_bind fun s hs => ?_
    have h : IsO w (s.scopes d.cur).prev := inferInstance
    split
    · rename_i x e
      have := h.ok x e
      infer_instance
    · infer_instance
  all_goals safe

theorem dbgLoop_safe {r : Rec} [SafeRec r] {top : Nat} {b : Bool} : ∀ {w} k {d : DS}, Good w d → Is w top .scope → Safe w (dbgLoop r top b k d)
  | w, 0, d, _, _ => by unfold dbgLoop; infer_instance
  | w, k + 1, d, h, h' => by
    have hr := fun w d h h' => dbgLoop_safe (r := r) (top := top) (b := b) (w := w) k (d := d) h h'
    unfold dbgLoop
    safe
    all_goals exact hr _ _ inferInstance inferInstance
instance (r : Rec) [SafeRec r] (top : Nat) (b : Bool) (k : Nat) (d : DS) [h : Good w d] [h' : Is w top .scope] : Safe w (dbgLoop r top b k d) := dbgLoop_safe k h h'
instance (r : Rec) [SafeRec r] (dbg : Dbg) (top : Nat) (b : Bool) [Is w top .scope] : Safe w (interactiveLoop r dbg top b) := by
  unfold interactiveLoop
  safe

/-! ## The attached debugger -/

instance (r : Rec) [SafeRec r] (top : Nat) (b : Bool) (cmd : Str) (cur : Nat) (script : Str) [Is w cur .scope] [Is w top .scope] :
    Safe w (dbgCommandD r top b cmd cur script) := by
  unfold dbgCommandD
  safe
theorem dbgLoopD_safe {r : Rec} [SafeRec r] {top : Nat} {b : Bool} : ∀ {w} k {cur : Nat} {script : Str}, Is w cur .scope → Is w top .scope →
    Safe w (dbgLoopD r top b k cur script)
  | w, 0, _, _, _, _ => by unfold dbgLoopD; infer_instance
  | w, k + 1, cur, script, h, h' => by
    have hr := fun w cur script h h' => dbgLoopD_safe (r := r) (top := top) (b := b) (w := w) k (cur := cur) (script := script) h h'
    unfold dbgLoopD
    safe
    all_goals exact hr _ _ _ inferInstance inferInstance
instance (r : Rec) [SafeRec r] (top : Nat) (b : Bool) (k : Nat) (cur : Nat) (script : Str) [h : Is w cur .scope] [h' : Is w top .scope] :
    Safe w (dbgLoopD r top b k cur script) := dbgLoopD_safe k h h'
instance (r : Rec) [SafeRec r] (top : Nat) (b : Bool) [Is w top .scope] : Safe w (interactD r top b) := by
  unfold interactD
  refine Safe.get_bind fun s _ => ?_
  safe
instance (r : Rec) [SafeRec r] (sid : Nat) (ast : List Ptr) [Is w sid .scope] [Good w ast] : Safe w (stopAt r sid ast) := by
  unfold stopAt
  safe
instance (r : Rec) [SafeRec r] (ast : List Ptr) (tok : Option Token) (sid : Nat) [Is w sid .scope] [Good w ast] : Safe w (beforeCall r ast tok sid) := by
  unfold beforeCall
  refine Safe.get_bind fun s _ => ?_
  refine Safe.get_bind fun s' _ => ?_
  refine Safe.bind (needsBreak_safe _ _ _ _ _ fun w' hx c => ?_) fun _ _ _ _ => ?_
  · transport
    infer_instance
  · transport
    safe
instance (r : Rec) (l : List Ptr) (sid : Nat) [SafeRec r] [Good w l] [Is w sid .scope] : Safe w (evalListD r l sid) := by
  unfold evalListD
  safe
instance (r : Rec) (ast : Ptr) (sid : Nat) [SafeRec r] [Good w ast] [Is w sid .scope] : Safe w (evalStepD r ast sid) := by
  unfold evalStepD
  safe
instance (r : Rec) (sid : Nat) [SafeRec r] [Is w sid .scope] : Safe w (bBreakD r sid) := by
  unfold bBreakD
  refine Safe.bind inferInstance fun _ _ _ _ => ?_
  transport
  refine Safe.rd_bind fun _ _ _ _ => ?_
  safe
instance (r : Rec) (child : Nat) (body : Ptr) (m : M (Option Variant)) [SafeRec r] [hc : Is w child .scope] [hb : Good w body] [h : Safe w m] :
    Safe w (catchD r child body m) := ⟨fun s hs => by
  have := h.ok s hs
  unfold catchD
  cases hm : m s with
  | ok a s' => rw [hm] at this; exact this
  | fail f s' =>
    rw [hm] at this
    cases f with
    | exn e =>
      cases e with
      | lisp full msg line start stop mod =>
        obtain ⟨w', hx, ho⟩ := this
        have h1 := hc.mono hx
        have h2 := hb.mono hx
        have h3 : Safe w' (do
            writeLine (c!"EXCEPTION: " ++ msg)
            let l ← M.rd fun st => toEnumerable st body
            stopAt r child l
            M.fail (.exn (.base msg)) : M (Option Variant)) := by
          clear hc hb h hs hx
          safe
        have h4 := h3.ok s' ho
        dsimp only
        revert h4
        generalize ((do
            writeLine (c!"EXCEPTION: " ++ msg)
            let l ← M.rd fun st => toEnumerable st body
            stopAt r child l
            M.fail (.exn (.base msg)) : M (Option Variant)) s') = o
        cases o with
        | ok a s2 => exact fun ⟨w2, a, b, c⟩ => ⟨w2, hx.trans a, b, c⟩
        | fail f s2 => exact fun ⟨w2, a, b⟩ => ⟨w2, hx.trans a, b⟩
      | _ => exact this
    | _ => exact this⟩
instance (r : Rec) (c : Closure) (args : List Ptr) (child : Nat) [SafeRec r] [Good w c] [Good w args] [Is w child .scope] : Safe w (callBodyD r c args child) := by
  unfold callBodyD
  safe
  all_goals exact callBody_closure inferInstance inferInstance
instance (r : Rec) (cid : Nat) (args : List Ptr) (sid : Nat) [SafeRec r] [Good w args] [Is w cid .closure] [Is w sid .scope] : Safe w (callClosureD r cid args sid) := by
  unfold callClosureD
  safe
instance (r : Rec) (f : FnW) (args : List Ptr) (sid : Nat) [SafeRec r] [h : Good w f] [Good w args] [Is w sid .scope] : Safe w (callStepD r f args sid) := by
  unfold callStepD
  split
  · infer_instance
  · infer_instance
  · rename_i c e
    have : Is w c .closure := ⟨h.ok c e⟩
    infer_instance
theorem runD_safe : ∀ k, SafeRec (runD k)
  | 0 => run_safe 0
  | k + 1 => by
    have := runD_safe k
    exact ⟨fun w p sid _ _ => inferInstanceAs (Safe w (evalStepD (runD k) p sid)),
      fun w f l sid _ _ _ => inferInstanceAs (Safe w (callStepD (runD k) f l sid)),
      fun w p sid _ _ => inferInstanceAs (Safe w (expandLoop (runD k) p sid)),
      fun w p sid _ _ => inferInstanceAs (Safe w (expandStep (runD k) p sid)),
      fun w p sid _ _ => inferInstanceAs (Safe w (procQStep (runD k) p sid)),
      fun w v p b l _ _ _ => inferInstanceAs (Safe w (substLoop (runD k) v p b l)),
      fun w c b sid x y _ _ _ _ _ => inferInstanceAs (Safe w (whileStep (runD k) c b sid x y))⟩
instance (k : Nat) : SafeRec (runD k) := runD_safe k

instance (k : Nat) (script module : Str) (tracing : Bool) (prev : Option Variant) (g : Nat) [Good w prev] [Is w g .scope] :
    Safe w (runProgram k script module tracing prev g) := by
  unfold runProgram
  refine Safe.bind inferInstance fun w' x hx hg => ?_
  transport
  cases x with
  | ok v =>
    have : Good w' v := ⟨hg.ok v rfl⟩
    clear hg
    safe
  | error e =>
    clear hg
    cases e <;> dsimp only <;> safe
instance (k : Nat) (g : Nat) (res : Option Variant) (again : Bool) [Good w res] [Is w g .scope] : Safe w (afterProgram k g res again) := by
  unfold afterProgram
  safe
/-- Creating an interpreter. -/
theorem create_bind {β : Type} [HasGood β] {k : Nat → M β} (hk : ∀ w' i, Ext w w' → Is w' i .scope → Safe w' (k i)) : Safe w (createDefaultScope >>= k) := by
  have h : Safe w _ := create_safe
  generalize createDefaultScope = c at h ⊢
  exact Safe.bind_post (fun w i => Is w i .scope) (fun s hs => by
    have := safe_id h s hs
    cases hc : c s <;> rw [hc] at this <;> exact this) hk
theorem debuggerTurn_main (k : Nat) (script module : Str) (tracing : Bool) (prev : Option Variant) (hp : Good w prev) : Safe w (do
    let g ← createDefaultScope
    let (res, again) ← runProgram k script module tracing prev g
    afterProgram k g res again) := by
  refine create_bind fun w' g _ _ => ?_
  transport
  safe
instance (k : Nat) (script module : Str) (tracing : Bool) (prev : Option Variant) [hp : Good w prev] : Safe w (debuggerTurn k script module tracing prev) := by
  unfold debuggerTurn
  have h := fun w' hp => debuggerTurn_main (w := w') k script module tracing prev hp
  split
  · refine Safe.bind (Safe.modify (fun _ => rfl) (fun _ => rfl) (fun _ => rfl) (fun _ => rfl) (fun _ => rfl)) fun w' _ hx _ => h w' (hp.mono hx)
  · exact h w hp
theorem debuggerLoop_safe {k : Nat} {script module : Str} {tracing : Bool} : ∀ {w} j {prev : Option Variant}, Good w prev →
    Safe w (debuggerLoop k script module tracing j prev)
  | w, 0, _, _ => by unfold debuggerLoop; infer_instance
  | w, j + 1, prev, h => by
    have hr := fun w prev h => debuggerLoop_safe (k := k) (script := script) (module := module) (tracing := tracing) (w := w) j (prev := prev) h
    unfold debuggerLoop
    safe
    all_goals exact hr _ _ inferInstance
instance (k : Nat) (script module : Str) (tracing : Bool) (j : Nat) (prev : Option Variant) [h : Good w prev] :
    Safe w (debuggerLoop k script module tracing j prev) := debuggerLoop_safe j h

/-! ## The program -/

theorem runFiles_safe {k : Nat} {stack : Str} {p : Plan} : ∀ {w} l {res : Option Variant}, Good w res → Safe w (runFiles k stack p res l)
  | w, [], _, _ => by unfold runFiles; infer_instance
  | w, f :: t, res, h => by
    have hr := fun w res h => runFiles_safe (k := k) (stack := stack) (p := p) (w := w) t (res := res) h
    unfold runFiles
    refine Safe.get_bind fun s _ => ?_
    safe
    all_goals exact hr _ _ inferInstance
instance (k : Nat) (stack : Str) (p : Plan) (l : List Str) (res : Option Variant) [h : Good w res] : Safe w (runFiles k stack p res l) := runFiles_safe l h
instance : Safe w loopHeader := by
  unfold loopHeader
  safe
instance (k : Nat) (trace : Bool) : Safe w (runShell k trace) := by
  unfold runShell
  refine Safe.bind inferInstance fun _ _ _ _ => ?_
  refine create_bind fun w' g _ _ => ?_
  transport
  safe
instance (k : Nat) (p : Plan) (d : Dbg) : Safe w (runDebugger k p d) := by
  unfold runDebugger
  refine Safe.bind (Safe.modify (fun _ => rfl) (fun _ => rfl) (fun _ => rfl) (fun _ => rfl) (fun _ => rfl)) fun w' _ hx _ => ?_
  refine Safe.get_bind fun s _ => ?_
  safe
theorem runPlan_end (k : Nat) (start : Int) (p : Plan) (res : Option Variant) (h : Good w res) : Safe w (do
    if p.expand then do
      let v ← derefV res
      let t ← M.rd fun st => varStr st k v
      writeLine (c!"Macro expand: " ++ t)
    else pure ()
    if p.trace then do
      let v ← derefV res
      let t ← M.rd fun st => varStr st k v
      writeLine (c!"Result=" ++ t)
    else pure ()
    if p.measure then do
      let now ← M.get fun s => World.tick s.clock
      M.modify fun s => { s with clock := s.clock + 1 }
      let l ← M.lift (format c!"Execution time = {0} s" (World.seconds (now - start)))
      writeLine l
    else pure ()) := by
  have h1 : ∀ w', Safe w' (do
      let now ← M.get fun s => World.tick s.clock
      M.modify fun s => { s with clock := s.clock + 1 }
      let l ← M.lift (format c!"Execution time = {0} s" (World.seconds (now - start)))
      writeLine l) := fun w' => by
    refine Safe.get_bind fun s _ => ?_
    safe
  cases p.expand <;> cases p.trace <;> cases p.measure <;> simp only [Bool.false_eq_true, if_false, if_true] <;> safe <;> exact h1 _
theorem runPlan_branch (k : Nat) (stack : Str) (p : Plan) (d : Dbg) (jp : Option Variant → M Unit) (h : ∀ w' res, Good w' res → Safe w' (jp res)) :
    Safe w (if p.debug then runDebugger k p d >>= jp
      else if p.loadFiles && !p.interactive then runFiles k stack p (some undefinedV) p.files >>= jp
      else if !p.script.isEmpty && !p.interactive then saveEval k stack true p.script c!"cmdline" false false p.expand >>= jp
      else pure (some undefinedV) >>= jp) := by
  split
  · exact Safe.bind inferInstance fun w' res _ hr => h w' res hr
  · split
    · exact Safe.bind inferInstance fun w' res _ hr => h w' res hr
    · split
      · exact Safe.bind inferInstance fun w' res _ hr => h w' res hr
      · exact h w _ inferInstance
theorem runPlan_shell (k : Nat) (p : Plan) (jp : Dbg → M Unit) (h : ∀ w' d, Safe w' (jp d)) :
    Safe w (if p.interactive then runShell k p.trace >>= jp else pure {} >>= jp) := by
  split
  · exact Safe.bind inferInstance fun w' d _ _ => h w' d
  · exact h w _
theorem runPlan_lib (p : Plan) (m : M Unit) (h : ∀ w', Safe w' m) :
    Safe w (match p.libPath with
      | some l => (M.modify fun s => { s with libPath := l }) >>= fun _ => m
      | none => pure () >>= fun _ => m) := by
  split
  · refine Safe.bind ?_ fun w' _ _ _ => h w'
    exact Safe.modify (fun _ => rfl) (fun _ => rfl) (fun _ => rfl) (fun _ => rfl) (fun _ => rfl)
  · exact h w
theorem runPlan_main (k : Nat) (stack : Str) (start : Int) (p : Plan) (d : Dbg) : Safe w (do
    let res ← if p.debug then runDebugger k p d
      else if p.loadFiles && !p.interactive then runFiles k stack p (some undefinedV) p.files
      else if !p.script.isEmpty && !p.interactive then
        saveEval k stack true p.script c!"cmdline" false false p.expand
      else pure (some undefinedV)
    if p.expand then do
      let v ← derefV res
      let t ← M.rd fun st => varStr st k v
      writeLine (c!"Macro expand: " ++ t)
    else pure ()
    if p.trace then do
      let v ← derefV res
      let t ← M.rd fun st => varStr st k v
      writeLine (c!"Result=" ++ t)
    else pure ()
    if p.measure then do
      let now ← M.get fun s => World.tick s.clock
      M.modify fun s => { s with clock := s.clock + 1 }
      let l ← M.lift (format c!"Execution time = {0} s" (World.seconds (now - start)))
      writeLine l
    else pure ()) := by
  exact runPlan_branch k stack p d _ fun w' res hr => runPlan_end (w := w') k start p res hr
instance (k : Nat) (stack : Str) (start : Int) (p : Plan) : Safe w (runPlan k stack start p) := by
  have h0 : ∀ w', Safe w' (do
      let d ← if p.interactive then runShell k p.trace else pure {}
      let res ← if p.debug then runDebugger k p d
        else if p.loadFiles && !p.interactive then runFiles k stack p (some undefinedV) p.files
        else if !p.script.isEmpty && !p.interactive then
          saveEval k stack true p.script c!"cmdline" false false p.expand
        else pure (some undefinedV)
      if p.expand then do
        let v ← derefV res
        let t ← M.rd fun st => varStr st k v
        writeLine (c!"Macro expand: " ++ t)
      else pure ()
      if p.trace then do
        let v ← derefV res
        let t ← M.rd fun st => varStr st k v
        writeLine (c!"Result=" ++ t)
      else pure ()
      if p.measure then do
        let now ← M.get fun s => World.tick s.clock
        M.modify fun s => { s with clock := s.clock + 1 }
        let l ← M.lift (format c!"Execution time = {0} s" (World.seconds (now - start)))
        writeLine l
      else pure ()) := fun w' => by
    exact runPlan_shell k p _ fun w' d => runPlan_main (w := w') k stack start p d
  unfold runPlan
  exact runPlan_lib p _ h0
instance (b : Bool) : Safe w (usage b) := by
  unfold usage
  safe
instance (k : Nat) (stack : Str) (b : Bool) (args : List Str) : Safe w (mainExtended k stack b args) := by
  unfold mainExtended
  refine Safe.rd_bind fun _ x _ _ => ?_
  cases x <;> dsimp only
  case run p =>
    refine Safe.get_bind fun s _ => ?_
    safe
  all_goals infer_instance
end Fuel
