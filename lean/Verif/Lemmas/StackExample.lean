import Verif.Model.StackRun
import Verif.Lemmas.NodeExample
/-! # A concrete stack for the examples and counterexamples -/
namespace LiCan.Stack
open Node (exEnv exMem exOps)

/-- the configuration of `exEnv`; every handler of the application succeeds, the block handler reads
fourteen bytes; the tick counter advances by 10 per reading -/
def exA : AEnv :=
  { exEnv with
    bufSize := 140
    reply := fun _ c => match c with
      | .hnd .dlBlock _ _ => { acts := List.replicate 14 .get }
      | _ => {}
    clock := fun k => 10 * k + 10
    crc := fun d => d.mode + 3 * d.comp.nr + 5 * d.baud + 7 * d.user1.toNat + 11 * d.user2.toNat }

/-- transfer info as left by an earlier run: mode 4 (application), rate 250 -/
def exInfo : XInfo := ⟨⟨4, { nr := 125 }, 250, 0, 0⟩, 4 + 375 + 1250⟩

/-- modules 5 and 9 registered, handlers 10 to 17 -/
def exSetup : List SIn :=
  [.init 250] ++ exOps.map (fun o => .api (.table o)) ++
  [.hnd .dlStart (some 10), .hnd .dlVersion (some 11), .hnd .dlStartReq (some 12), .hnd .dlBlock (some 13),
   .hnd .dlEnd (some 14), .hnd .ulInfo (some 15), .hnd .ulStart (some 16), .hnd .ulAck (some 17),
   .rcCb .onStart (some 20), .rcCb .onStop (some 21), .rcCb .suStart (some 22), .rcCb .suStop (some 23)]

/-- the stack after that -/
def exS : Stack := (run exA (boot exMem exInfo) exSetup).getD (boot exMem exInfo)

theorem exS_run : run exA (boot exMem exInfo) exSetup = some exS := by
  have : (run exA (boot exMem exInfo) exSetup).isSome = true := by decide +kernel
  unfold exS
  generalize run exA (boot exMem exInfo) exSetup = o at *
  cases o with
  | none => cases this
  | some s => rfl

/-- calls of the application, oldest first -/
def exApp (s : Stack) : List ACall := s.slv.node.log.reverse.filterMap fun e => match e with
  | .app c => some c
  | _ => none

/-- frames sent, oldest first -/
def exFrames (s : Stack) : List Frame := s.slv.node.log.reverse.filterMap fun e => match e with
  | .frame f true => some f
  | _ => none

end LiCan.Stack
