#!/usr/bin/env python3
"""Writes Model/Message.lean (the M3UA interface and messages.Parse), Lemmas/MsgInst.lean (instances
of Codec) and Props/MessageLayout.lean (one layout theorem per constructor)."""
import sys,os,re
sys.path.insert(0,"/verif/tools")
from gen_messages import *
L="/verif/lean/Verif"
D=[gen(f) for f in FILES]
def con(d):
    m=d["mod"]; return m[0].lower()+m[1:]
# order of cases in Parse
src=open(f"{REPO}/message.go").read()
order=re.findall(r"case combine\((\w+), (\w+)\):\n\t\tm = &(\w+)\{\}",src)
byname={d["name"]:d for d in D}
o=["import Verif.Model.Generic"]+[f"import Verif.Model.Msg.{d['mod']}" for d in D]
o+=["import Verif.Spec.Table","",
"/- Model of `messages/message.go`: the `M3UA` interface and `Parse`. Written by `tools/gen_message_sum.py`. -/","",
"namespace M3","",
"/-- A value of the interface type `M3UA`, `messages/message.go:88-99`: a non-nil pointer to one of the\n20 message types of the package. -/",
"inductive M3UA where"]
for d in D: o.append(f"  | {con(d)} (m : Msg.{d['name']})")
o+=["  | generic (m : Msg.Generic)","  deriving DecidableEq, Repr","","namespace M3UA",""]
allc=[(con(d),d['name']) for d in D]+[("generic","Generic")]
def disp(doc,sig,expr):
    o.append(f"/-- {doc} -/"); o.append(f"def {sig}")
    for c,n in allc: o.append(f"  | .{c} m => "+expr(c,n))
    o.append("")
disp("Dynamic dispatch of `MarshalLen`, `message.go:92`.","marshalLen : M3UA → Nat",lambda c,n:"m.marshalLen")
disp("Dynamic dispatch of `MarshalTo`, `message.go:90`.","marshalTo (b : Slice) : M3UA → Res (M3UA × Bytes)",lambda c,n:f"m.marshalTo b >>= fun r => .ok (.{c} r.1, r.2)")
disp("Dynamic dispatch of `MarshalBinary`, `message.go:89`.","marshalBinary : M3UA → Res (M3UA × Bytes)",lambda c,n:f"m.marshalBinary >>= fun r => .ok (.{c} r.1, r.2)")
disp("Dynamic dispatch of `UnmarshalBinary`, `message.go:91`.","unmarshalBinary (b : Bytes) : M3UA → Res M3UA",lambda c,n:f"m.unmarshalBinary b >>= fun m => .ok (.{c} m)")
disp("The embedded header.","header : M3UA → Header",lambda c,n:"m.header")
disp("Dynamic dispatch of `MessageClass`, `message.go:94`.","messageClass : M3UA → UInt8",lambda c,n:"m.messageClass")
disp("Dynamic dispatch of `MessageType`, `message.go:95`.","messageType : M3UA → UInt8",lambda c,n:"m.messageType")
disp("Dynamic dispatch of `Version`, `message.go:93`.","version : M3UA → UInt8",lambda c,n:"m.version")
o+=["/-- Package function `MarshalBinary`, `message.go:103-110`. -/",
"def marshalBinaryOf (m : M3UA) : Res (M3UA × Bytes) := do",
"  let b := Slice.make m.marshalLen","  let (m, mem) ← m.marshalTo b","  return (m, { b with mem := mem }.bytes)","",
"/-- The local function `combine` of `Parse`, `message.go:119-121`: the shift is in `uint8`. -/",
"def combine (c t : UInt8) : UInt16 := ((c <<< 4) ||| t).toUInt16","",
"/-- The switch of `Parse`, `message.go:122-171`: an empty value of the selected type. -/",
"def select (t : UInt16) : M3UA :="]
first=True
for c,t,n in order:
    d=byname[n]
    o.append(f"  {'' if first else 'else '}if t = combine {CONST[c]} {CONST[t]} then .{con(d)} Msg.{n}.zero"); first=False
o+=["  else .generic Msg.Generic.zero","",
"/-- `Parse`, `message.go:114-177`. -/",
"def parse (b : Bytes) : Res M3UA := do",
"  if b.length < 4 then .err .msgTooShortToParse else",
"  let c ← rindex b 2","  let t ← rindex b 3","  (select (combine c t)).unmarshalBinary b","",
"/-- Which of the known messages this is; `none` for `Generic`. -/",
"def kind : M3UA → Option Spec.Kind"]
for d in D: o.append(f"  | .{con(d)} _ => some .{con(d)}")
o+=["  | .generic _ => none","",
"/-- The exported parameter field with the given name (nil if there is no such field). -/",
"def field : M3UA → Spec.PName → Option Param"]
for d in D:
    for x in d["morder"]: o.append(f"  | .{con(d)} m, .{low(x)} => m.{low(x)}")
o+=["  | _, _ => none","",
"/-- The exported but unused field `AspIdentifier` of the ASP Down and Heartbeat messages and their\nacknowledgements (`asp-down.go:19`, `heartbeat.go:19`, ...); nil for all other messages. -/",
"def unusedField : M3UA → Option Param"]
for d in D:
    for x in d["fields"]:
        if x not in d["morder"]: o.append(f"  | .{con(d)} m => m.{low(x)}")
o+=["  | _ => none","",
"/-- Result of one of the 19 constructors `NewXxx`, with any arguments. -/",
"inductive Constructed : M3UA → Prop"]
for d in D:
    a=" ".join(d["args"]); o.append(f"  | {con(d)} ({a} : Option Param) : Constructed (.{con(d)} (Msg.{d['name']}.new {a}))")
o+=["","end M3UA","","end M3"]
open(f"{L}/Model/Message.lean","w").write("\n".join(o)+"\n")
# instances
o=["import Verif.Model.Message","import Verif.Lemmas.Codec","","/-! Each typed message is an instance of `Codec`. Written by `tools/gen_message_sum.py`. -/","","namespace M3","","open Msg",""]
for d in D:
    n=d["name"]; fs=[low(x) for x in d["morder"]]; k=len(fs)
    tagof={low(x):low(t) for t,x in d["cases"]}
    auxs=[low(x) for x in d["fields"] if x not in d["morder"]]
    o.append(f"instance : Codec {n} where")
    o.append("  tags := ["+", ".join("Tag."+tagof[x] for x in fs)+"]")
    o.append(f"  bad := {d['err'].strip('()') if not d['err'].startswith('(') else d['err']}")
    o.append("  hdr m := m.header\n  setHdr m h := { m with header := h }")
    o.append("  flds m := ["+", ".join("m."+x for x in fs)+"]")
    o.append("  setFld m i p := match i with")
    for i,x in enumerate(fs): o.append(f"    | {i} => {{ m with {x} := some p }}")
    o.append("    | _ => m")
    o.append("  aux m := "+(f"m.{auxs[0]}" if auxs else "none"))
    assert len(auxs)<=1
    for f in ["zero","marshalLen","marshalTo","marshalBinary","setParam","setParams","unmarshalBinary"]: o.append(f"  {f} := {n}.{f}")
    o.append("  ext a b h1 h2 h3 := by cases a; cases b; simp_all")
    o.append("  tags_nodup := by decide")
    o.append("  flds_length _ := rfl\n  hdr_setHdr _ _ := rfl\n  flds_setHdr _ _ := rfl\n  aux_setHdr _ _ := rfl")
    pat=" | ".join([str(i) for i in range(k)])
    for law in ["hdr_setFld","flds_setFld","aux_setFld"]:
        o.append(f"  {law} m i p := by rcases i with "+"_ | "*k+"_ <;> rfl")
    o.append("  flds_zero := rfl\n  aux_zero := rfl\n  marshalLen_eq _ := rfl")
    o.append(f"  marshalTo_eq m b := by\n    unfold {n}.marshalTo\n    split\n    · rfl\n    · simp only [putParams, bind_assoc_res, Res.bind_ok]\n      rfl")
    o.append("  marshalBinary_eq _ := rfl")
    o.append(f"  setParam_eq m p := by\n    simp only [{n}.setParam, tagIdx]\n    repeat' split\n    all_goals simp_all")
    o.append("  setParams_nil _ := rfl\n  setParams_cons _ _ _ := rfl\n  unmarshalBinary_eq _ _ := rfl\n")
o+=["end M3"]
open(f"{L}/Lemmas/MsgInst.lean","w").write("\n".join(o)+"\n")
# layout theorems
o=["import Verif.Lemmas.Messages","","/-! Property C17, one theorem per constructor: the arguments appear in the RFC's order under the\nRFC's class and type. Written by `tools/gen_message_sum.py`. -/","","set_option autoImplicit false","","namespace M3","","open Msg Spec",""]
for d in D:
    a=d["args"]; A=" ".join(a)
    o.append(f"/-- C17 for `New{d['name']}`. -/")
    c=con(d)
    o.append(f"theorem c17_{c} ({A} : Option Param) :\n    (M3UA.{c} ({d['name']}.new {A})).Encodes\n      (message 1 Kind.{c}.cls Kind.{c}.typ (presentTlvs [{', '.join('tv '+x for x in a)}])) :=\n  M3UA.layout _ .{c} rfl rfl [{', '.join(a)}] rfl\n")
o+=["end M3"]
open(f"{L}/Props/MessageLayout.lean","w").write("\n".join(o)+"\n")
