import Verif.Props.DocPath

/-! A sample document for the theorems about `SetPath` (C26), and what the code does outside of their
hypotheses. -/

namespace Xmp.Props

open GoStr SyncFlags

/-- Sample namespaces: `x` with a model, `y` without. -/
def nsX : Namespace := ⟨"x".toList, "http://x".toList, some 0⟩
/-- See `nsX`. -/
def nsY : Namespace := ⟨"y".toList, "http://y".toList, none⟩

/-- The model of `x`. -/
def mdlX (v : Val) : Mdl := ⟨[nsX], ["x".toList], sampleTy refZero, v⟩

/-- The sample environment. -/
def envX : Env := ⟨(Registry.register {} nsX []).register nsY [], fun _ _ => some (mdlX (sample0 refZero))⟩

/-- A document with a model of `x` and a bare node of `y`. -/
def docX (v : Val) : XDoc :=
  { roots := [⟨Node.new ⟨[], "x".toList⟩, some (mdlX v)⟩, ⟨Node.mk ⟨[], "y".toList⟩ [] [] [Node.mk ⟨[], "y:a".toList⟩ [] "1".toList []], none⟩]
    intNs := [(nsX.uri, nsX)] }

/-- A `PathValue`. -/
def pv (p v : String) (f : SyncFlags := 0) : PathValue := { path := p.toList, value := v.toList, flags := f }

theorem docX_served (v : Val) : Served envX (docX v) nsX ∧ Served envX (docX v) nsY :=
  ⟨⟨0, _, rfl, rfl, Or.inl ⟨_, rfl, rfl⟩⟩, ⟨1, _, rfl, rfl, Or.inr ⟨rfl, rfl, rfl⟩⟩⟩

/-- Hypotheses of `setPath_denied_partial`: an existing value is not replaced with the create flag only. -/
example : (docX (put refZero (sample0 refZero) "x:name" "a").1).setPath envX (pv "x:name" "b" CREATE) =
    (docX (put refZero (sample0 refZero) "x:name" "a").1, envX.reg, .err) :=
  setPath_denied_partial (cur := "a".toList) (docX_served _).1 rfl rfl (Or.inl (by decide)) rfl (by decide)
    (by intro h; exact absurd (h.2.2 (by decide)) (by decide))

/-- The other outcome: with the replace flag it is replaced. -/
example : ((docX (put refZero (sample0 refZero) "x:name" "a").1).setPath envX (pv "x:name" "b" REPLACE)).1.getPath envX
    "x:name".toList = .ok "b".toList := rfl

/-- Hypotheses of `setPath_other_namespace`. -/
example (v : Val) : ((docX v).setPath envX (pv "x:name" "b")).1.getPath envX "y:a".toList = .ok "1".toList :=
  setPath_other_namespace (j := 1) (ns' := nsY) (docX_served v).1 rfl rfl (Or.inl (by decide)) rfl rfl
    (by intro h; cases h)

/-- Hypotheses of `setPath_frame_model`. -/
example (v : Val) (ht : HasTy (sampleTy refZero) v) (h : got refZero v "x:name" = .ok "me".toList) :
    ((docX v).setPath envX (pv "x:ref/st:rank" "3")).1.getPath envX "x:name".toList = .ok "me".toList :=
  (setPath_frame_model (j := 0) (m := mdlX v) (desc := pv "x:ref/st:rank" "3") rfl rfl rfl rfl rfl rfl rfl (by decide) (by decide) rfl rfl
    (sampleTy_wf _) sampleTy_zeroLaw ht sample_apart.1 (by decide) h).2

/-- Hypotheses of `setPath_writes`. -/
example (v : Val) (ht : HasTy (sampleTy refZero) v) (h : got refZero v "x:name" = .ok "old".toList) :
    ((docX v).setPath envX (pv "x:name" "me")).1.getPath envX "x:name".toList = .ok "me".toList :=
  (setPath_writes (j := 0) (m := mdlX v) (desc := pv "x:name" "me") (t := .str) (k := false) (w := .str "me".toList) rfl rfl
    rfl rfl rfl rfl (by decide) (by decide) (by decide) (by decide) (sampleTy_wf _) sampleTy_zeroLaw ht
    (.leaf (i := 0) (idx := -1) (lang := []) (fi := { name := "x:name".toList, attr := true }) (fty := .str)
      ⟨by decide, by decide, ⟨"name".toList, by decide, by decide⟩, rfl, rfl⟩ rfl trivial)
    (fun _ _ => rfl) rfl (fun _ => rfl) h).2.1

/-- Hypotheses of `setPath_deletes_namespace`. -/
example (v : Val) : ((docX v).setPath envX (pv "x:" "" DELETE)).1.roots = (docX v).roots.drop 1 :=
  (setPath_deletes_namespace (docX_served v).1 rfl rfl rfl rfl rfl (by show ["x".toList, "y".toList].Nodup; decide)
    ⟨_, List.mem_cons_self, rfl⟩).1

/-- C26 fails: an empty value without the delete flag is refused, but the model is added to the document
before, which is changed and marked as such. -/
theorem empty_value_creates_model :
    (XDoc.setPath envX {} (pv "x:name" "" CREATE)).2.2 = .err ∧
    (XDoc.setPath envX {} (pv "x:name" "" CREATE)).1.roots =
      [⟨Node.new ⟨[], "x".toList⟩, some (mdlX (sample0 refZero))⟩] ∧
    (XDoc.setPath envX {} (pv "x:name" "" CREATE)).1.dirty = true := ⟨rfl, rfl, rfl⟩

/-- A document with a bare node although the namespace has a model. -/
def docRaw : XDoc :=
  { roots := [⟨Node.mk ⟨[], "x".toList⟩ [] [] [Node.mk ⟨[], "x:name".toList⟩ [] "old".toList []], none⟩]
    intNs := [(nsX.uri, nsX)] }

/-- C26 fails for a bare node of a namespace with a model: a refused change attaches an empty model to the
node, which hides the value. -/
theorem refused_change_hides_value :
    docRaw.getPath envX "x:name".toList = .ok "old".toList ∧
    (docRaw.setPath envX (pv "x:name" "new" REPLACE)).2.2 = .err ∧
    (docRaw.setPath envX (pv "x:name" "new" REPLACE)).1.getPath envX "x:name".toList = .ok [] := ⟨rfl, rfl, rfl⟩

/-- Setting a non-empty value on the root path of a namespace with the default flags deletes the
namespace with all its properties, and succeeds. -/
theorem root_value_deletes (v : Val) :
    ((docX v).setPath envX (pv "x:" "value")).2.2 = .ok ∧
    ((docX v).setPath envX (pv "x:" "value")).1.roots = (docX v).roots.drop 1 := ⟨rfl, rfl⟩

/-- With `NOFAIL`, an error is still reported when the current value can not be read, here because the path
ends in a struct. -/
theorem nofail_read_error :
    ((docX (put refZero (sample0 refZero) "x:ref/st:rank" "3").1).setPath envX (pv "x:ref" "b" (CREATE ||| NOFAIL))).2.2 =
      .err := rfl

end Xmp.Props
