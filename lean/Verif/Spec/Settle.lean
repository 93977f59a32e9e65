import Verif.Spec.AxisBack

/-! Specification vocabulary for files that are converted to NetCDF and back again and again. -/

namespace Nappy.Spec

variable {F : Type}

/-- No comment of a file holds one of the four headings of comments, other than as a line of its own. -/
def PlainComments (hp : Headings) (o : Obj F) : Prop :=
  (∀ s ∈ (comHeader o).SCOM, strip s ∉ specialKnown hp → PlainComment hp s) ∧
    ∀ s ∈ (comHeader o).NCOM, strip s ∉ normalKnown hp → PlainComment hp s

/-- The headings begin with an equals sign, as in `nappy.ini`. -/
def HeadingsMarked (hp : Headings) : Prop :=
  ∀ h ∈ [hp.sc_start, hp.sc_end, hp.addl_vatts, hp.addl_globals], h.head? = some '='

/-- A file that reads as `o` is converted to NetCDF and back, and the new file reads as `o'`. All variables are asked
for, nobody gives other names, comments, originators, sources or missions, and what C97 asks for is met. The same headings, the same arithmetic (`add`,
`x`) and a number format that keeps `q` are used. -/
inductive Trip (fmt : Str → Codec F) (table : String → Str) (hp : Headings) (add : F → F → F) (x : XEnv F) (q : F → F) :
    Obj F → Obj F → Prop
  | go {cd : Codec F} {tenv : ToXEnv F} {typed : List Str} {naFile text ncName : Str} {na : NAToNCArgs F}
      {nc nc' : NCFile F} {o o' : Obj F} {env : ApiEnv F} {args : NCToNAArgs F} {c : WriteCall F} {out : Out}
      (hread : readFile cd 0 text = .ok o)
      (hto : convertNAToNC cd tenv typed naFile text na = .ok (ncName, nc))
      (hopen : env.openNC args.ncFile = .ok nc') (hback : ReopenedFile env.collect.x.isNaN nc nc')
      (hcalls : (convertNCToNA (emitFile fmt table) env args).calls = [c]) (hfile : fileOf fmt table c = .ok out)
      (hread' : readFile (fmt args.opts.floatFormat) 0 out.text = .ok o')
      (hadd : tenv.add = add) (hx : env.collect.x = x) (hcb : tenv.cb = none) (hren : na.renameVariables = [])
      (hmain : na.mainVars = .all) (haux : na.auxVars = .all) (hattrs : (na.globalAttributes.map Prod.fst).Nodup)
      (hcount : nc.vars.length = (varHeader o).NV.toNat + (Spec.auxCount o).toNat)
      (hret : Returnable tenv na.renameVariables env.collect.x o) (hfree : NamesFree nc.vars)
      (hids : args.varIds = none) (hexc : args.excludeVars = []) (hreq : args.requestedFFI = none)
      (hloc : LocalKnown env.collect.localNc) (huni : ∀ ax, ax.values ≠ [] → ∃ u, env.collect.x.uniform ax = .ok u)
      (hcd : (fmt args.opts.floatFormat).Lawful q) (hdel : WsDelim args.opts.delimiter)
      (ho : args.opts.annotation = false) (hh : args.opts.noHeader = false) (hsz : args.opts.sizeLimit = none)
      (hnames : args.onlyNames = false)
      (hfit : ∀ d, ncDicts env args = .ok [d] → TripFits env args.naItems args.opts.delimiter o.FFI d)
      (hover : ∀ k ∈ env.cfg.localAtts.map Prod.fst ++ args.naItems.map Prod.fst,
        k ≠ "VNAME" ∧ k ≠ "ANAME" ∧ k ≠ "SCOM" ∧ k ≠ "NCOM" ∧ k ≠ "ONAME" ∧ k ≠ "SNAME" ∧ k ≠ "MNAME")
      (hhp : tenv.hp = hp ∧ env.collect.hp = hp) :
      Trip fmt table hp add x q o o'

end Nappy.Spec
