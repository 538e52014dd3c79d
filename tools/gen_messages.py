#!/usr/bin/env python3
"""Reads every message file of /repo/messages and writes one Lean model per file.
Field orders and line numbers are extracted separately from each Go function; the script
refuses to continue when a function does not have the shape it knows."""
import re, os, sys
REPO="/repo/messages"; OUT=os.environ.get("OUT","/verif/lean/Verif/Model/Msg")
FILES=["error","notify","data","duna","dava","daud","scon","dupu","drst","asp-up","asp-down","heartbeat","asp-up-ack","asp-down-ack","heartbeat-ack","asp-active","asp-inactive","asp-active-ack","asp-inactive-ack"]
def low(s): return s[0].lower()+s[1:]
def msg_consts():
    src=open(f"{REPO}/message.go").read()
    c={}
    for blk in re.findall(r"const \(\n(.*?)\n\)",src,re.S):
        for i,l in enumerate(blk.split("\n")):
            n=l.split()[0]
            if n.startswith("MsgClassName"): continue
            if n!="_": c[n]=i
    return c
CONST=msg_consts()
def funcs(lines):
    res={}
    i=0
    while i<len(lines):
        m=re.match(r"func (?:\((\w+) \*(\w+)\) )?(\w+)\((.*?)\)",lines[i])
        if m:
            j=i
            while lines[j]!="}": j+=1
            res[m.group(3)]=(i+1,j+1,lines[i:j+1],m)
            i=j
        i+=1
    return res
def err(f,msg): sys.exit(f"{f}: unexpected shape: {msg}")
def gen(f):
    path=f"{REPO}/{f}.go"; lines=open(path).read().split("\n")
    text="\n".join(lines)
    m=re.search(r"type (\w+) struct \{\n\t\*Header\n(.*?)\n\}",text,re.S)
    name=m.group(1); s0=text[:m.start()].count("\n")+1; s1=text[:m.end()].count("\n")+1
    fields=[]
    for l in m.group(2).split("\n"):
        mm=re.fullmatch(r"\t(\w+)\s+\*params\.Param",l) or err(f,l); fields.append(mm.group(1))
    fs=funcs(lines)
    # constructor
    a,b,body,mm=fs["New"+name]; newref=(a,b)
    args=mm.group(4).replace("*params.Param","").split(","); args=[x.strip() for x in args]
    bt="\n".join(body)
    hm=re.search(r"Header: &Header\{\n\s*Version:\s+1,\n\s*Reserved: 0,\n\s*Class:\s+(\w+),\n\s*Type:\s+(\w+),\n\s*\},\n(.*?)\n\t\}\n\t\w+\.SetLength\(\)",bt,re.S) or err(f,"ctor")
    ccls,ctyp=hm.group(1),hm.group(2)
    inits=[]
    for l in hm.group(3).split("\n"):
        x=re.fullmatch(r"\t\t(\w+):\s+(\w+),",l) or err(f,l); inits.append((x.group(1),x.group(2)))
    # MarshalBinary shape
    a,b,body,mm=fs["MarshalBinary"]; mbref=(a,b); r=mm.group(1)
    exp=f"\tb := make([]byte, {r}.MarshalLen())\n\tif err := {r}.MarshalTo(b); err != nil {{\n\t\treturn nil, err\n\t}}\n\treturn b, nil\n}}"
    if "\n".join(body[1:])!=exp: err(f,"MarshalBinary")
    # MarshalTo
    a,b,body,mm=fs["MarshalTo"]; mtref=(a,b)
    bt="\n".join(body)
    pre=f"\tif len(b) < {r}.MarshalLen() {{\n\t\treturn ErrTooShortToMarshalBinary\n\t}}\n\n\t{r}.Header.Payload = make([]byte, {r}.MarshalLen()-8)\n"
    if pre not in bt or not bt.endswith(f"\treturn {r}.Header.MarshalTo(b)\n}}"): err(f,"MarshalTo")
    mid=bt.split(pre)[1][:-len(f"\treturn {r}.Header.MarshalTo(b)\n}}")]
    blocks=re.findall(rf"\tif param := {r}\.(\w+); param != nil \{{\n\t\tif err := param\.MarshalTo\({r}\.Header\.Payload(\[offset:\])?\); err != nil \{{\n\t\t\treturn err\n\t\t\}}\n(\t\toffset \+= param\.MarshalLen\(\)\n)?\t\}}",mid)
    rest=re.sub(rf"\tif param := {r}\.(\w+); param != nil \{{\n\t\tif err := param\.MarshalTo\({r}\.Header\.Payload(\[offset:\])?\); err != nil \{{\n\t\t\treturn err\n\t\t\}}\n(\t\toffset \+= param\.MarshalLen\(\)\n)?\t\}}","",mid)
    if re.sub(r"\t//.*","",rest).replace("\tvar offset = 0","").strip(): err(f,"MarshalTo rest "+rest)
    for i,(n,o,adv) in enumerate(blocks):
        if i>0 and not o: err(f,"offset")
        if i<len(blocks)-1 and not adv: err(f,"advance")
    morder=[x[0] for x in blocks]
    # Parse
    a,b,body,mm=fs["Parse"+name]; pref=(a,b)
    if f"{r} := &{name}{{}}" not in body[1]: err(f,"Parse")
    # Unmarshal
    a,b,body,mm=fs["UnmarshalBinary"]; uref=(a,b)
    bt="\n".join(body[1:])
    um=re.fullmatch(rf"\tvar err error\n\t{r}\.Header, err = ParseHeader\(b\)\n\tif err != nil \{{\n\t\treturn err\n\t\}}\n\n\tprs, err := params\.ParseMultiParams\({r}\.Header\.Payload\)\n\tif err != nil \{{\n\t\treturn err\n\t\}}\n\tfor _, pr := range prs \{{\n\t\tswitch pr\.Tag \{{\n(.*?)\t\tdefault:\n\t\t\treturn (.*?)\n\t\t\}}\n\t\}}\n\treturn nil\n\}}",bt,re.S) or err(f,"Unmarshal")
    cases=re.findall(rf"\t\tcase params\.(\w+):\n\t\t\t{r}\.(\w+) = pr\n",um.group(1))
    if re.sub(rf"\t\tcase params\.(\w+):\n\t\t\t{r}\.(\w+) = pr\n","",um.group(1)): err(f,"cases")
    sw=[i for i,l in enumerate(body) if "switch pr.Tag" in l][0]+a
    swend=[i for i,l in enumerate(body) if l=="\t\t}"][-1]+a
    e=um.group(2)
    if e=="ErrInvalidParameter": lerr=".msgInvalidParameter"
    else:
        x=re.fullmatch(r'fmt\.Errorf\("failed to decode (\w+): %w", ErrInvalidParameter\)',e) or err(f,e)
        lerr=f'(.wrapped "{x.group(1)}" .msgInvalidParameter)'
    # SetLength
    a,b,body,mm=fs["SetLength"]; slref=(a,b)
    bt="\n".join(body[1:])
    sl=re.findall(rf"\tif param := {r}\.(\w+); param != nil \{{\n\t\tparam\.SetLength\(\)\n\t\}}\n",bt)
    x=re.sub(rf"\tif param := {r}\.(\w+); param != nil \{{\n\t\tparam\.SetLength\(\)\n\t\}}\n","",bt).strip()
    if re.sub(r"//.*","",x).strip()!=f"{r}.Header.Length = uint32({r}.MarshalLen())\n}}": err(f,"SetLength "+x)
    # MarshalLen
    a,b,body,mm=fs["MarshalLen"]; mlref=(a,b)
    bt="\n".join(body[1:])
    ml=re.findall(rf"\tif param := {r}\.(\w+); param != nil \{{\n\t\tl \+= param\.MarshalLen\(\)\n\t\}}\n",bt)
    x=re.sub(rf"\tif param := {r}\.(\w+); param != nil \{{\n\t\tl \+= param\.MarshalLen\(\)\n\t\}}\n","",bt).strip()
    if re.sub(r"\s+"," ",re.sub(r"//.*","",x))!="l := 8 return l }": err(f,"MarshalLen "+x)
    # accessors
    def const(fn):
        a,b,body,mm=fs[fn]
        return re.fullmatch(r"\treturn (\w+)",body[1]).group(1),(a,b)
    mcls,mcref=const("MessageClass"); mtyp,mtyref=const("MessageType")
    vref=fs["Version"][:2]
    if fs["Version"][2][1]!=f"\treturn {r}.Header.Version": err(f,"Version")
    R=lambda t: f"`messages/{f}.go:{t[0]}-{t[1]}`"
    L=[]
    w=L.append
    w("import Verif.Model.Header\n")
    w(f"/- Model of `messages/{f}.go`, written by `tools/gen_messages.py`. -/\n")
    w("namespace M3.Msg\n")
    w(f"/-- `{name}`, {R((s0,s1))}. The embedded `*Header` is taken to be non-nil. -/")
    w(f"structure {name} where\n  header : Header")
    for x in fields: w(f"  {low(x)} : Option Param")
    w("  deriving DecidableEq, Repr\n")
    w(f"namespace {name}\n")
    w(f"/-- `&{name}{{}}`, {R(pref)}; the nil header, which `UnmarshalBinary` overwrites first, is a zero header. -/")
    w(f"def zero : {name} := ⟨Header.zero{', none'*len(fields)}⟩\n")
    w(f"/-- `(*{name}).MarshalLen`, {R(mlref)}. -/")
    w(f"def marshalLen (m : {name}) : Nat :=\n  let l := 8")
    for x in ml: w(f"  let l := addLen l m.{low(x)}")
    w("  l\n")
    w(f"/-- `(*{name}).SetLength`, {R(slref)}. -/")
    w(f"def setLength (m : {name}) : {name} :=")
    for x in sl: w(f"  let m := {{ m with {low(x)} := m.{low(x)}.map Param.setLength }}")
    w("  { m with header := { m.header with length := UInt32.ofNat m.marshalLen } }\n")
    ini=dict(inits)
    w(f"/-- `New{name}`, {R(newref)}. -/")
    w(f"def new ({' '.join(args)} : Option Param) : {name} :=")
    w(f"  setLength {{")
    w(f"    header := {{ version := 1, reserved := 0, cls := {CONST[ccls]}, typ := {CONST[ctyp]}, length := 0, payload := [] }}")
    for x in fields: w(f"    {low(x)} := {ini.get(x,'none')}")
    w("  }\n")
    w(f"/-- `(*{name}).MarshalTo`, {R(mtref)}. Result: the message after the call (`Header.Payload` is\noverwritten) and the caller's backing array. -/")
    w(f"def marshalTo (m : {name}) (b : Slice) : Res ({name} × Bytes) := do")
    w("  if b.len < m.marshalLen then .err .msgTooShortToMarshal else")
    w("  let payload := Slice.make (m.marshalLen - 8)")
    off="0"
    for i,x in enumerate(morder):
        w(f"  let (payload, {'offset' if i<len(morder)-1 else '_'}) ← putParam payload {off} m.{low(x)}"); off="offset"
    w("  let m := { m with header := { m.header with payload := payload.bytes } }")
    w("  let mem ← m.header.marshalTo b\n  return (m, mem)\n")
    w(f"/-- `(*{name}).MarshalBinary`, {R(mbref)}. -/")
    w(f"def marshalBinary (m : {name}) : Res ({name} × Bytes) := do\n  let b := Slice.make m.marshalLen\n  let (m, mem) ← m.marshalTo b\n  return (m, {{ b with mem := mem }}.bytes)\n")
    w(f"/-- One iteration of the switch in `UnmarshalBinary`, `messages/{f}.go:{sw}-{swend}`. -/")
    w(f"def setParam (m : {name}) (pr : Param) : Res {name} :=")
    first=True
    for t,x in cases:
        w(f"  {'' if first else 'else '}if pr.tag = Tag.{low(t)} then .ok {{ m with {low(x)} := some pr }}"); first=False
    w(f"  else .err {lerr}\n")
    w(f"/-- The `for _, pr := range prs` loop of `UnmarshalBinary`, `messages/{f}.go:{sw-1}-{swend+1}`. -/")
    w(f"def setParams (m : {name}) : List Param → Res {name}\n  | [] => .ok m\n  | pr :: prs => do\n    let m ← m.setParam pr\n    m.setParams prs\n")
    w(f"/-- `(*{name}).UnmarshalBinary`, {R(uref)}; on error the partly updated value is not kept. -/")
    w(f"def unmarshalBinary (m : {name}) (b : Bytes) : Res {name} := do\n  let h ← Header.parse b\n  let m := {{ m with header := h }}\n  let prs ← parseMultiParams m.header.payload\n  m.setParams prs\n")
    w(f"/-- `Parse{name}`, {R(pref)}. -/")
    w(f"def parse (b : Bytes) : Res {name} := zero.unmarshalBinary b\n")
    w(f"/-- `(*{name}).Version`, {R(vref)}. -/\ndef version (m : {name}) : UInt8 := m.header.version\n")
    w(f"/-- `(*{name}).MessageType`, {R(mtyref)}. -/\ndef messageType (_m : {name}) : UInt8 := {CONST[mtyp]}\n")
    w(f"/-- `(*{name}).MessageClass`, {R(mcref)}. -/\ndef messageClass (_m : {name}) : UInt8 := {CONST[mcls]}\n")
    w(f"end {name}\n\nend M3.Msg")
    mod="".join(p.capitalize() for p in f.split("-"))
    os.makedirs(OUT,exist_ok=True)
    open(f"{OUT}/{mod}.lean","w").write("\n".join(L)+"\n")
    return dict(f=f,mod=mod,name=name,fields=fields,args=args,inits=inits,ml=ml,sl=sl,morder=morder,cases=cases,cls=CONST[ccls],typ=CONST[ctyp],err=lerr)
if __name__=="__main__":
    for f in FILES:
        d=gen(f); print(d["mod"],d["name"],d["cls"],d["typ"],d["morder"],d["morder"]==d["ml"]==d["sl"],set(d["morder"])==set(x for _,x in d["cases"]),[x for x,_ in d["inits"]]==d["morder"])
