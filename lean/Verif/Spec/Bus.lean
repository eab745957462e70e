import Verif.Spec.Session
import Verif.Spec.EndToEnd
import Verif.Proofs.DriverExchange

/-! A bus: one master device and any number of slave devices (indexed by `ι`) on the same line. -/

namespace Modbus

open Spec

/-- Everything in `HExchange.Good` but the frame. -/
structure HExchange.Timed (cfg : Config) (x : HExchange) : Prop extends x.WF cfg where
  nogap : hbytes x.gap = []
  tx : ∀ op ∈ x.tx, op.noise cfg
  n3 : ∀ op ∈ x.n3, op.noise cfg
  irqs : 256 ≤ x.tx.count (.usart none true)
  polls3 : 1 ≤ x.n3.count (.main .poll)

/-- What one slave device hears since the last attempt and in this one: first any number of frames that do not concern it, then possibly the
request. -/
structure Ear where
  noise : List HExchange
  req : Option HExchange

/-- The events of the slave device. -/
def Ear.ops (e : Ear) : List HOp :=
  e.noise.flatMap HExchange.opsSilent ++
    match e.req with
    | some x => x.ops
    | none => []

/-- A slave with ID `id` during an attempt of request `r`. What it hears as noise is damaged (a gap in it, or a wrong CRC), or begins with the address of
another slave (requests to others, responses of others). It hears the request only if it is addressed, and then undamaged. -/
structure Ear.Wf (cfg : Config) (id : U8) (r : MReq) (e : Ear) : Prop where
  noise : ∀ x ∈ e.noise, x.WF cfg ∧ (hbytes x.gap ≠ [] ∨ (¬ CrcCorrect x.frame ∨ x.frame.getD 0 0 ≠ id) ∧ x.frame.length ≤ 255)
  req : ∀ x, e.req = some x → id = reqSlave r ∧ x.Timed cfg ∧ x.frame = reqFrame r

/-- The slaves of a bus, ready. -/
structure BusReady {ι : Type} (id : ι → U8) (sl : ι → SlaveSys) : Prop where
  sync : ∀ i, HSync (sl i)
  ids : ∀ i, (sl i).lib.id = id i

/-- A transaction on the bus: the master's side, what the master's application is told, and what each slave hears in each attempt. -/
structure BusRound (ι : Type) where
  round : HRound
  told : Told
  ears : List (ι → Ear)
  lastEar : ι → Ear

/-- The slaves run through an attempt of request `r`, from states `sl` to `sl'`, with outputs `o`. -/
def SlavesRun {ι : Type} (cfg : ι → Config) (id : ι → U8) (r : MReq) (sl : ι → SlaveSys) (e : ι → Ear) (sl' : ι → SlaveSys) (o : ι → List HOut) : Prop :=
  ∀ i, (e i).Wf (cfg i) (id i) r ∧ slaveSysRun (cfg i) (sl i) (e i).ops = .ok (sl' i, o i)

/-- Several attempts. -/
inductive SlavesRuns {ι : Type} (cfg : ι → Config) (id : ι → U8) (r : MReq) : (ι → SlaveSys) → List (ι → Ear) → (ι → SlaveSys) → Prop
  | nil (sl : ι → SlaveSys) : SlavesRuns cfg id r sl [] sl
  | cons {sl sl1 sl2 : ι → SlaveSys} {e : ι → Ear} {o : ι → List HOut} {es : List (ι → Ear)} (h : SlavesRun cfg id r sl e sl1 o)
      (hs : SlavesRuns cfg id r sl1 es sl2) : SlavesRuns cfg id r sl (e :: es) sl2

/-- The slaves' side of a session. The line is lossless in one respect only: a response the master takes as undamaged in the end consists of the
bytes which some slave with the address of the request has put on the line in this attempt, on hearing the request. -/
inductive BusSession {ι : Type} (cfg : ι → Config) (id : ι → U8) : (ι → SlaveSys) → List (BusRound ι) → (ι → SlaveSys) → Prop
  | nil (sl : ι → SlaveSys) : BusSession cfg id sl [] sl
  | cons {sl sl1 sl2 sl3 : ι → SlaveSys} {b : BusRound ι} {bs : List (BusRound ι)} {o : ι → List HOut}
      (hf : SlavesRuns cfg id b.round.req sl b.ears sl1) (hn : b.ears.length = b.round.fails.length)
      (hl : SlavesRun cfg id b.round.req sl1 b.lastEar sl2 o)
      (hr : ∀ f, b.told = .response f → ∃ i, (b.lastEar i).req.isSome ∧ f = wire (o i))
      (hs : BusSession cfg id sl2 bs sl3) : BusSession cfg id sl (b :: bs) sl3

/-- What an attempt of request `r` does to a slave's application memory `m`; the second but last argument is the memory at the moment the request is
processed, if it is. -/
inductive Attends (l : Limits) (r : MReq) (m : AppMem) (e : Ear) : Option AppMem → AppMem → Prop
  /-- not heard: only the slave's application changes the memory -/
  | unheard (h : e.req = none) : Attends l r m e none (appMem m (mainOps e.ops))
  /-- heard: processed once, at a poll after the end of the frame -/
  | heard {pre post : List HOp} (h : e.req.isSome) (split : e.ops = pre ++ .main .poll :: post) (after35 : .timer ∈ pre) :
      Attends l r m e (some (appMem m (mainOps pre))) (appMem (effect l (appMem m (mainOps pre)) (asRequest r)) (mainOps post))

/-- Several attempts. -/
inductive AttendsAll {ι : Type} (l : ι → Limits) (r : MReq) : (ι → AppMem) → List (ι → Ear) → (ι → AppMem) → Prop
  | nil (m : ι → AppMem) : AttendsAll l r m [] m
  | cons {m m1 m2 : ι → AppMem} {at' : ι → Option AppMem} {e : ι → Ear} {es : List (ι → Ear)} (h : ∀ i, Attends (l i) r (m i) (e i) (at' i) (m1 i))
      (hs : AttendsAll l r m1 es m2) : AttendsAll l r m (e :: es) m2

/-- What a session on the bus comes to, from the slaves' application memories before to those after it: every transaction is one of the requests; its
effect on the memories is that of the attempts the addressed slave heard; and an undamaged response tells the master's application the prescribed
outcome for the memory of a slave with that address at the moment of processing. -/
inductive BusTold {ι : Type} (l : ι → Limits) (id : ι → U8) : (ι → AppMem) → List (BusRound ι) → List Tx → (ι → AppMem) → Prop
  | nil (m : ι → AppMem) : BusTold l id m [] [] m
  | cons {m m1 m2 m3 : ι → AppMem} {at' : ι → Option AppMem} {b : BusRound ι} {bs : List (BusRound ι)} {t : Tx} {ts : List Tx}
      (hr : t.req = b.round.req) (hc : t.count = b.round.fails.length + 1) (hf : AttendsAll l b.round.req m b.ears m1)
      (hl : ∀ i, Attends (l i) b.round.req (m1 i) (b.lastEar i) (at' i) (m2 i))
      (he : b.told.says b.round.req t.evs)
      (ho : ∀ f, b.told = .response f → ∃ i mem, id i = reqSlave b.round.req ∧ at' i = some mem ∧ t.evs = outcome (l i) mem b.round.req)
      (hs : BusTold l id m2 bs ts m3) : BusTold l id m (b :: bs) (t :: ts) m3

end Modbus
