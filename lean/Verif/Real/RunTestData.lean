/-
Runs the model on the larger files in /repo/*/testdata. The build compiles this file but does not run it. From /verif/lean:

  lake env lean --run Verif/Real/RunTestData.lean

1. TestLoadKey: the signature of message.txt made by OpenBSD's signify is accepted.
2. Sign with test.sec and the passphrase writes exactly the file message.txt.sig.
3. TestSeal and TestOpen with the first 20000 bytes of meditations.txt (two pieces).
-/
import Verif.Real.TestData

open Verif Verif.Real

private def report (name : String) (ok : Bool) : IO Unit := IO.println s!"{if ok then "ok  " else "FAIL"} {name}"

def main : IO Unit := do
  let file (p : System.FilePath) : IO Bytes := do return (← IO.FS.readBinFile p).toList
  let dir : System.FilePath := "/repo/signify/testdata"
  let message ← file (dir / "message.txt")
  report "literals are the files" ((← file (dir / "test.pub")) == testPub && (← file (dir / "test.sec")) == testSec &&
    (← file (dir / "message.txt.sig")) == testSig && (← file "/repo/crypto/testdata/test.pub") == boxPub &&
    (← file "/repo/crypto/testdata/test.sec") == boxSec)
  let w := testWorld.setFile b!"message.txt" ⟨message, 0o644⟩
  report "Verify accepts message.txt.sig" (value? (Verify testPrims b!"test.pub" b!"message.txt" [] w).1 == some ())
  let w' := w.setFile b!"message.txt" ⟨message.dropLast, 0o644⟩
  report "Verify rejects a changed message" (value? (Verify testPrims b!"test.pub" b!"message.txt" [] w').1 == none)
  let r := Sign testPrims b!"test.sec" b!"message.txt" b!"out.sig" w
  report "Sign writes message.txt.sig" (value? r.1 == some () && (r.2.fs b!"out.sig").map (·.data) == some testSig)
  let long := (← file "/repo/crypto/testdata/meditations.txt").take 20000
  let r := (do Seal real b!"test.pub" b!"m" []; Open real 100000 b!"test.sec" b!"m.enc" b!"m2" : Act World Unit)
    (boxWorld.setFile b!"m" ⟨long, 0o644⟩)
  report "Open recovers what Seal wrote" (value? r.1 == some () && (r.2.fs b!"m2").map (·.data) == some long)
