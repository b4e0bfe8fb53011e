import Verif.Setup.Model
import Verif.Snark.Indexer
open Verif Verif.Setup Verif.Plonk Verif.Anon
def tp : Rescue.Params (ZMod Bls.r) := { Rescue.blsParams with alphaInv := [5] }
def dump (name : String) (o : Option (CS (ZMod Bls.r))) : IO Unit := do
  match o with
  | none => IO.println s!"{name}: none"
  | some c =>
    let h ← IO.FS.Handle.mk s!"{name}.txt" .write
    h.putStrLn s!"{c.gates.length} {c.numVars}"
    h.putStrLn s!"{c.pubCons}"
    h.putStrLn s!"{c.boolIdx}"
    for g in c.gates do
      h.putStrLn s!"{g.wires} {g.sels.map ZMod.val}"
    IO.println s!"{name}: {c.gates.length} {c.numVars}"
#eval dump "ar2abar" (arToAbarCs tp (0,0,0))
#eval dump "bar2abar" (barToAbarCs tp false SimFr.ristretto (0,0,0))
#eval dump "abar2ar" (abarToArCs tp false SimFr.secq256k1 secpOrderBytes 20)
#eval dump "abar2bar" (abarToBarCs tp false SimFr.secq256k1 SimFr.ristretto secpOrderBytes 20)
-- the first 30 bytes of the SHA-256 of 32 zero bytes
def feeType : ZMod Bls.r := 656019472989111001224431169366248910211919621265440583096688834812471398
#eval (do
  for n in [1:7] do
    for m in [1:7] do
      dump s!"t{n}{m}" (transferCs tp false SimFr.secq256k1 secpOrderBytes feeType n m 20) : IO Unit)
