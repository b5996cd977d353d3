import Verif.Model.File
import Verif.Lemmas.Basic

namespace Verif

namespace LnkFile

theorem process_ok_iff {env : Env} {cp : Option String} {allow : Bool} {data : Bytes} {f : LnkFile} :
    (process env cp allow data).res = .ok f ↔
      ∃ header hs targets i1 info i2 sd extras n,
        (LnkHeader.init data).res = .ok header ∧ header.size.res = .ok hs ∧
        (processTargets (TextProc.mk' env cp) data header hs).res = .ok (targets, i1) ∧
        (processInfo (TextProc.mk' env cp) data header i1).res = .ok (info, i2) ∧
        (StringData.init header (TextProc.mk' env cp) (data.drop i2)).res = .ok sd ∧
        (ExtraData.init (TextProc.mk' env cp) allow (data.drop (i2 + sd.size))).res = .ok extras ∧
        extras.size.res = .ok n ∧
        f = ⟨data, header, hs + 2, targets, info, sd, extras,
          i2 + sd.size + n + min (data.drop (i2 + sd.size + n)).length 4⟩ := by
  unfold process
  simp only [Py.bind_ok_iff, Py.pure_res, Except.ok.injEq]
  constructor
  · rintro ⟨header, h1, hs, h2, ⟨targets, i1⟩, h3, ⟨info, i2⟩, h4, sd, h5, extras, h6, n, h7, rfl⟩
    exact ⟨header, hs, targets, i1, info, i2, sd, extras, n, h1, h2, h3, h4, h5, h6, h7, rfl⟩
  · rintro ⟨header, hs, targets, i1, info, i2, sd, extras, n, h1, h2, h3, h4, h5, h6, h7, rfl⟩
    exact ⟨header, h1, hs, h2, ⟨targets, i1⟩, h3, ⟨info, i2⟩, h4, sd, h5, extras, h6, n, h7, rfl⟩

/-- The bytes of a source. -/
def _root_.Verif.Source.bytes : Source → Bytes
  | .fhandle b => b
  | .indata b => b

theorem init_ok {env : Env} {cp : Option String} {allow : Bool} {src : Source} {f : LnkFile}
    (h : (init env cp allow src).res = .ok f) : (process env cp allow src.bytes).res = .ok f := by
  cases src with
  | fhandle b => exact h
  | indata b =>
    simp only [init] at h
    split at h
    · simp at h
    · exact h

theorem getJson_ok_iff {f : LnkFile} {all : Bool} {j : Dict} :
    (f.getJson all).res = .ok j ↔
      ∃ header target info extra,
        f.jsonHeader.res = .ok header ∧ f.jsonTarget.res = .ok target ∧ f.jsonInfo.res = .ok info ∧
        f.extras.asDict.res = .ok extra ∧
        j = [("size", .nat f.size), ("header", .dict (if all then header else pruneHeader header))]
          ++ ((target.map fun t => if all then t else pruneTarget t).toList.map fun t => ("target", .dict t))
          ++ [("link_info", .dict (if all then info else pruneInfo info)), ("data", .dict f.stringData.asDict),
            ("extra", .dict extra)] := by
  unfold getJson
  simp only [Py.bind_ok_iff, Py.pure_res, Except.ok.injEq]
  constructor
  · rintro ⟨a, h1, b, h2, c, h3, d, h4, rfl⟩
    exact ⟨a, b, c, d, h1, h2, h3, h4, rfl⟩
  · rintro ⟨a, b, c, d, h1, h2, h3, h4, rfl⟩
    exact ⟨a, h1, b, h2, c, h3, d, h4, rfl⟩

end LnkFile

end Verif
