/-
The text of `readDataFileBytes` of signify/common.go run on a few blocks of memory, then in any memory.
-/
import Verif.Source.Keep
import Verif.Source.EvalTidy
import Verif.Source.Turns
import Verif.Source.CryptoSeal

namespace Verif.Src

variable {ω : Type} (S : Sys ω) (v0 v1 : Val)

/-- A file that was read, in memory. -/
def dataVal (comment : Bytes) (data : Val) : Val := .struct id!"dataFile" [(id!"comment", .str comment), (id!"data", data)]

/-- The loop of `readDataFileBytes`. -/
noncomputable def scanFor : Option Stmt × Option Expr × Option Stmt × List Stmt := Stmt.loopParts (common.readDataFileBytes.body[4]?)

/-- The names in its scope. -/
def scanEnv : Env := [(id!"scanner", .var ⟨10, []⟩), (id!"buf", .var ⟨8, []⟩), (id!"dat", .var ⟨6, []⟩), (id!"line", .var ⟨4, []⟩),
  (id!"data", .var ⟨3, []⟩)]

def scanCtx : Ctx := ⟨id!"signify", scanEnv.enter⟩

/-- Memory at the start of an iteration. -/
def scanMem (vs : List Val) (n cap : Nat) (all line comment t l : Bytes) : List Val :=
  [v0, v1, .arr vs, .slice ⟨2, []⟩ 0 n cap, .str line, dataVal comment .nil, .ptr ⟨5, []⟩, .str all, .ptr ⟨7, []⟩,
    .arr [.str t, .str l], .ptr ⟨9, []⟩]

theorem scan_none (vs : List Val) (n cap : Nat) (all line comment t l : Bytes) (w : ω) (h : scanLine t = none) :
    turn (interp (repo S) 20) scanCtx scanFor.2.1 scanFor.2.2.1 scanFor.2.2.2 ⟨scanMem v0 v1 vs n cap all line comment t l, 3, [], w⟩ =
      .ok .brk ⟨scanMem v0 v1 vs n cap all line comment t l, 3, [], w⟩ := by
  seval [h]

theorem scan_more (vs : List Val) (n cap : Nat) (all line comment t l tok rest : Bytes) (w : ω) (h : scanLine t = some (tok, rest))
    (hp : commentPrefix.isPrefixOf tok = true) :
    turn (interp (repo S) 20) scanCtx scanFor.2.1 scanFor.2.2.1 scanFor.2.2.2 ⟨scanMem v0 v1 vs n cap all line comment t l, 3, [], w⟩ =
      .ok .next ⟨scanMem v0 v1 vs n cap all tok (comment ++ tok.drop commentPrefix.length) rest tok, 3, [], w⟩ := by
  refine (by seval [h, hp] : _ = _).trans ?_
  rw [if_pos (show (b!"untrusted comment: ").isPrefixOf tok = true from hp)]
  rfl

theorem scan_last (vs : List Val) (n cap : Nat) (all line comment t l tok rest : Bytes) (w : ω) (h : scanLine t = some (tok, rest))
    (hp : ¬commentPrefix.isPrefixOf tok = true) :
    turn (interp (repo S) 20) scanCtx scanFor.2.1 scanFor.2.2.1 scanFor.2.2.2 ⟨scanMem v0 v1 vs n cap all line comment t l, 3, [], w⟩ =
      .ok .brk ⟨scanMem v0 v1 vs n cap all tok comment rest tok, 3, [], w⟩ := by
  seval [h, hp]

theorem scan_loop (vs : List Val) (n cap : Nat) (all : Bytes) (w : ω) (k : Nat) : ∀ (line comment t l : Bytes), t.length ≤ k →
    ∃ t' l', (interp (repo S) (k + 21)).iter scanCtx scanFor.2.1 scanFor.2.2.1 scanFor.2.2.2 ⟨scanMem v0 v1 vs n cap all line comment t l, 3, [], w⟩ =
      .ok .next ⟨scanMem v0 v1 vs n cap all (scanLoop line comment t).1 (scanLoop line comment t).2 t' l', 3, [], w⟩ := by
  induction k with
  | zero =>
    intro line comment t l ht
    have ht : t = [] := List.length_eq_zero_iff.1 (by omega)
    subst ht
    have e : scanLine [] = none := rfl
    refine ⟨[], l, ?_⟩
    rw [iter_turn, scan_none S v0 v1 vs n cap all line comment [] l w e, scanLoop, e]
    rfl
  | succ k ih =>
    intro line comment t l ht
    show ∃ t' l', (interp (repo S) (k + 21 + 1)).iter _ _ _ _ _ = _
    rw [iter_turn]
    rcases e : scanLine t with _ | ⟨tok, rest⟩
    · refine ⟨t, l, ?_⟩
      rw [(turn_mono (interp_mono (.refl (repo S)) (by omega)) _ _ _ _).eq (scan_none S v0 v1 vs n cap all line comment t l w e) (by simp)]
      have : scanLoop line comment t = (line, comment) := by unfold scanLoop; split <;> simp_all
      rw [this]
      rfl
    · rcases hp : commentPrefix.isPrefixOf tok with _ | _
      · refine ⟨rest, tok, ?_⟩
        rw [(turn_mono (interp_mono (.refl (repo S)) (by omega)) _ _ _ _).eq
          (scan_last S v0 v1 vs n cap all line comment t l tok rest w e (by simp [hp])) (by simp)]
        have : scanLoop line comment t = (tok, comment) := by unfold scanLoop; split <;> simp_all
        rw [this]
        rfl
      · rw [(turn_mono (interp_mono (.refl (repo S)) (by omega)) _ _ _ _).eq
          (scan_more S v0 v1 vs n cap all line comment t l tok rest w e hp) (by simp)]
        have hs : scanLoop line comment t = scanLoop tok (comment ++ tok.drop commentPrefix.length) rest := by
          conv => lhs; unfold scanLoop
          split <;> simp_all
        rw [hs]
        exact ih _ _ _ _ (by have := scanLine_lt e; omega)

/-- A call with a loop after the first `k` statements. -/
theorem call_while {P : Prog ω} {n : Nat} {p : Id} {f : Func} {vs : List Val}
    {s s1 s2 s3 : St ω} {env env2 : Env} {c : Ctx} {i : Option Stmt} {e : Option Expr} {post : Option Stmt} {b : List Stmt} {r : R ω Ctl} (k : Nat)
    (h1 : (params [] (f.recv.toList ++ f.params) vs >>= fun env => namedResults (interp P (n + 1)) ⟨p, env⟩ env f.results)
      { s with base := s.mem.length, defers := [] } = .ok env s1)
    (h2 : execsEnv (interp P (n + 1)) ⟨p, env⟩ (f.body.take k) s1 = .ok (env2, .next) s2)
    (h3 : f.body.drop k = .loop i e post b :: f.body.drop (k + 1))
    (h4 : initial (interp P n) ⟨p, env2⟩ i s2 = .ok c s3)
    (h5 : (interp P n).iter c e post b s3 = r) :
    (interp P (n + 2)).call p f vs s =
      finish P (interp P (n + 1)) f env s (after (interp P (n + 1)) ⟨p, env2⟩ (f.body.drop (k + 1)) (endLoop env2 r)) := by
  refine call_parts k h1 h2 h3 ?_
  refine (M.bind_ok h4).trans ?_
  show M.bind _ _ _ = _
  unfold M.bind
  rw [h5]
  cases r <;> rfl

/-- `readDataFileBytes`. -/
theorem data_run (bs : Bytes) (cap : Nat) (w : ω) :
    Agrees (readDataFileBytes bs, w) id
      (fun d w' r => ∃ new : List Val, new.length = 10 ∧ new[2]? = some (dataVal d.comment (.slice ⟨12, []⟩ 0 d.data.length d.data.length)) ∧
        new[9]? = some (.arr (byteVals d.data)) ∧ Val.anyRefers 13 new = false ∧
        r = .ok [.ptr ⟨5, []⟩, .nil] ⟨[v0, v1, .arr (byteVals bs)] ++ new, 3, [], w'⟩)
      (fun e w' r => r = .ok [.nil, libErr e] ⟨[v0, v1, .arr (byteVals bs)], 3, [], w'⟩)
      ((interp (repo S) (bs.length + 23)).call id!"signify" common.readDataFileBytes [.slice ⟨2, []⟩ 0 bs.length cap]
        ⟨[v0, v1, .arr (byteVals bs)], 3, [], w⟩) := by
  have ht : List.map valByte (List.take bs.length (List.drop 0 (byteVals bs))) = bs := by
    rw [List.drop_zero, List.take_of_length_le (by rw [byteVals_length]), map_valByte_byteVals]
  obtain ⟨t', l', loop⟩ := scan_loop S v0 v1 (byteVals bs) bs.length cap bs w bs.length [] [] bs [] (Nat.le_refl _)
  rw [call_while (n := bs.length + 21) (i := scanFor.1) (e := scanFor.2.1) (post := scanFor.2.2.1) (b := scanFor.2.2.2) (env2 := scanEnv) 4 (by seval [])
    ((by seval [] : _ = _).trans (by rw [ht]; rfl)) (by krfl) (by seval []) loop]
  rcases hs : scanLoop [] [] bs with ⟨line, comment⟩
  simp only
  rcases hd : B64.decodeString line with out | _ | _
  · refine Agrees.of (o' := (.ok ⟨comment, out⟩, w)) (by unfold readDataFileBytes; rw [hs]; simp only [hd]) rfl ?_
    refine ⟨[_, _, _, _, _, _, _, _, _, _], rfl, rfl, rfl, ?_, (by seval [hd] : _ = _).trans (by rw [byteVals_length]; rfl)⟩
    simp [Val.anyRefers, Val.refers, Val.fieldRefers, dataVal, byteVals_plain]
  · exact Agrees.of (o' := (.err .corruptBase64, w)) (by unfold readDataFileBytes; rw [hs]; simp only [hd]) (by seval [hd]) rfl
  · exact Agrees.of (o' := (.panic, w)) (by unfold readDataFileBytes; rw [hs]; simp only [hd]) (by seval [hd]) ⟨_, rfl, rfl, rfl⟩

/-- `readDataFileBytes(data []byte) (*dataFile, error)`, common.go:27-51. -/
theorem data_in {s : St ω} {v0 v1 : Val} (G : Globals s v0 v1) {l : Loc} (hl : 2 ≤ l.blk) {bs : Bytes}
    (E : l.get s.mem = some (.arr (byteVals bs))) (cap : Nat) {n : Nat} (hn : bs.length + 23 ≤ n) :
    Ends s.defers (readDataFileBytes bs, s.world) id
      (fun d w' r => ∃ new : List Val, new.length = 10 ∧
        new[2]? = some (dataVal d.comment (.slice ⟨s.mem.length + 9, []⟩ 0 d.data.length d.data.length)) ∧
        new[9]? = some (.arr (byteVals d.data)) ∧ Val.anyRefers (s.mem.length + 10) new = false ∧
        r = .ok [.ptr ⟨s.mem.length + 2, []⟩, .nil] ⟨s.mem ++ new, s.base, s.defers, w'⟩)
      (fun e w' r => r = .ok [.nil, libErr e] ⟨s.mem, s.base, s.defers, w'⟩)
      ((interp (repo S) n).call id!"signify" common.readDataFileBytes [.slice l 0 bs.length cap] s) := by
  have pl : Val.anyRefers 0 [Val.arr (byteVals bs)] = false := by simp [Val.anyRefers, Val.refers, byteVals_plain]
  have run := data_run S v0 v1 bs cap s.world
  have c := carry_keep S hn (ρ := [l]) (us := [.arr (byteVals bs)]) (args := [.slice ⟨2, []⟩ 0 bs.length cap]) (o := (readDataFileBytes bs, s.world))
    (world := id)
    (Q := fun d rs new => new.length = 10 ∧ new[2]? = some (dataVal d.comment (.slice ⟨12, []⟩ 0 d.data.length d.data.length)) ∧
        new[9]? = some (.arr (byteVals d.data)) ∧ Val.anyRefers 13 new = false ∧ rs = [.ptr ⟨5, []⟩, .nil])
    (Q' := fun e rs new => new = [] ∧ rs = [.nil, libErr e]) G (by simp [hl]) (by simp)
    (by simp only [getAll, E]; rw [Emb.renVs_plain _ _ pl]) (p := id!"signify") (f := common.readDataFileBytes)
    (run.mono (fun d w' ⟨new, h1, h2, h3, h4, h5⟩ => ⟨_, new, ⟨h1, h2, h3, h4, rfl⟩, h5⟩) (fun e w' h => ⟨_, [], ⟨rfl, rfl⟩, h⟩))
  have ea : (beside s [l]).renVs [.slice ⟨2, []⟩ 0 bs.length cap] = [.slice l 0 bs.length cap] := by
    simp only [Emb.renVs, Emb.renV]; rw [ren_two 0 l rfl]
  rw [ea] at c
  refine c.mono ?_ ?_
  · rintro d w' ⟨rs, new, ⟨h1, h2, h3, h4, rfl⟩, k⟩
    refine ⟨(beside s [l]).renVs new, by rw [Emb.renVs_length, h1], ?_, ?_, ?_, k⟩
    · rw [Emb.renVs_eq, List.getElem?_map, h2, Option.map_some]
      rfl
    · rw [Emb.renVs_eq, List.getElem?_map, h3, Option.map_some, Emb.renV, Emb.renVs_plain _ _ (byteVals_plain 0 _)]
    · have v := beside_valid G (ρ := [l]) (by simp [hl]) (by simp) (by simp [E])
      rw [← h4]
      exact Emb.renVs_refers (fun m => Emb.ren_lt v (b := 13) (by simp)) new
  · rintro e w' ⟨rs, new, ⟨rfl, rfl⟩, k⟩
    rw [k]
    simp only [Emb.renVs, List.append_nil]
    rfl

end Verif.Src
