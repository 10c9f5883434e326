/- The host test program software/src/xilinx_test.cpp as a whole, with tools.cpp, mmap_handler.cpp, xilinx_dma.cpp and
core_axi_lite.cpp: every access to memory and to device registers, in program order. The functions on data alone are in
`Model/HostTool.lean`. Left out: the clock calls and the printing of times and of dumped bytes. -/
import Verif.Model.HostTool
import Verif.Model.Driver

set_option autoImplicit false

namespace Model.HostMain
open Model.Host

/-! ### Programs that access memory -/

/-- The memories of the program: the two buffers of `load_file`, the two DMA regions (xilinx_test.cpp:42-43), and the register
windows of the Xilinx DMA engine and of the core. -/
inductive Region
  | raw12 | lj92 | source | dest | dma | core
deriving DecidableEq, Repr

/-- What a run of the program does. Offsets are in bytes and may be negative. -/
inductive Ev
  /-- a load of `n` bytes that gives `v` (little-endian) -/
  | load (r : Region) (off : Int) (n v : Nat)
  /-- a store of `n` bytes -/
  | store (r : Region) (off : Int) (n v : Nat)
  /-- `fread` of the first `n` bytes of the file into the buffer -/
  | fread (r : Region) (n : Nat)
  /-- `malloc` of `n` bytes -/
  | malloc (r : Region) (n : Nat)
  /-- `mmap` of `n` bytes from the physical address `base` -/
  | mmap (r : Region) (base n : Nat)
  | free (r : Region)
  /-- `log` or `cout` -/
  | say (s : String)
  /-- `exit(EXIT_FAILURE)` -/
  | exit
deriving DecidableEq, Repr

/-- Programs. -/
inductive P (α : Type)
  | ret (a : α)
  | load (r : Region) (off : Int) (n : Nat) (k : Nat → P α)
  | act (e : Ev) (k : P α)
  /-- success or failure of a system call -/
  | ask (k : Bool → P α)
  /-- `while(!done(load))` -/
  | wait (r : Region) (off : Int) (n : Nat) (done : Nat → Bool) (k : P α)
  | die

namespace P

def bind {α β : Type} : P α → (α → P β) → P β
  | ret a, f => f a
  | load r off n k, f => load r off n fun v => (k v).bind f
  | act e k, f => act e (k.bind f)
  | ask k, f => ask fun b => (k b).bind f
  | wait r off n d k, f => wait r off n d (k.bind f)
  | die, _ => die

instance : Monad P where
  pure := ret
  bind := bind

end P

/-- Memory contents, by region and byte offset. -/
abbrev Mem := Region → Int → Nat

/-- A little-endian load of `n` bytes. -/
def ldn (f : Int → Nat) (off : Int) : Nat → Nat
  | 0 => 0
  | n + 1 => f off + 256 * ldn f (off + 1) n

/-- A little-endian store of `n` bytes. -/
def stn (f : Int → Nat) (off : Int) (n v : Nat) : Int → Nat :=
  fun a => if off ≤ a ∧ a < off + n then v / 256 ^ (a - off).toNat % 256 else f a

/-- Effect on memory; `files` are the contents of the two files. -/
def effect (files : Region → Nat → Nat) (e : Ev) (m : Mem) : Mem :=
  match e with
  | .store r off n v => fun r' => if r' = r then stn (m r) off n v else m r'
  | .fread r n => fun r' => if r' = r then (fun a => if 0 ≤ a ∧ a < n then files r a.toNat else m r a) else m r'
  | _ => m

/-- What a load may give. The two buffers and the source region, which the DMA engine only reads, are plain memory. The
destination region and the registers are written by others: a load gives any value. -/
def LoadOk (m : Mem) (r : Region) (off : Int) (n v : Nat) : Prop :=
  match r with
  | .raw12 | .lj92 | .source => v = ldn (m r) off n
  | .dest | .dma | .core => v < 256 ^ n

/-- Runs of a program, finished (`some`) or not. A run may stop anywhere: what holds of all runs holds at every moment. -/
inductive Run (files : Region → Nat → Nat) {α : Type} : P α → Mem → List Ev → Option α → Mem → Prop
  | stop {p : P α} {m : Mem} : Run files p m [] none m
  | ret {a : α} {m : Mem} : Run files (.ret a) m [] (some a) m
  | die {m : Mem} : Run files .die m [.exit] none m
  | load {r : Region} {off : Int} {n v : Nat} {k : Nat → P α} {m m' : Mem} {t : List Ev} {o : Option α} :
      LoadOk m r off n v → Run files (k v) m t o m' → Run files (.load r off n k) m (.load r off n v :: t) o m'
  | act {e : Ev} {k : P α} {m m' : Mem} {t : List Ev} {o : Option α} :
      Run files k (effect files e m) t o m' → Run files (.act e k) m (e :: t) o m'
  | ask {b : Bool} {k : Bool → P α} {m m' : Mem} {t : List Ev} {o : Option α} :
      Run files (k b) m t o m' → Run files (.ask k) m t o m'
  | more {r : Region} {off : Int} {n v : Nat} {d : Nat → Bool} {k : P α} {m m' : Mem} {t : List Ev} {o : Option α} :
      LoadOk m r off n v → d v = false → Run files (.wait r off n d k) m t o m' →
      Run files (.wait r off n d k) m (.load r off n v :: t) o m'
  | done {r : Region} {off : Int} {n v : Nat} {d : Nat → Bool} {k : P α} {m m' : Mem} {t : List Ev} {o : Option α} :
      LoadOk m r off n v → d v = true → Run files k m t o m' → Run files (.wait r off n d k) m (.load r off n v :: t) o m'

/-! ### tools.cpp -/

/-- tools.cpp:5-8. -/
def log (s : String) : P Unit := .act (.say s) (.ret ())

/-- tools.cpp:10-16. -/
def assertTerm (cond : Bool) (msg : String) : P Unit :=
  if cond then .ret () else .act (.say ("Error & Terminating - " ++ msg)) .die

def load (r : Region) (off : Int) (n : Nat) : P Nat := .load r off n .ret
def store (r : Region) (off : Int) (n v : Nat) : P Unit := .act (.store r off n v) (.ret ())
def sys : P Bool := .ask .ret

/-- `for(i = i0; n times; i++) f(i)`. -/
def loop (f : Nat → P Unit) : Nat → Nat → P Unit
  | 0, _ => .ret ()
  | n + 1, i => (f i).bind fun _ => loop f n (i + 1)

/-- The loads of `mem_dump` (tools.cpp:19-28); `char` by `char`. -/
def memDump (r : Region) (off : Int) (length : Nat) : P Unit := loop (fun i => (load r (off + i) 1).bind fun _ => .ret ()) length 0

/-- `load_file` (tools.cpp:30-45) of a file of `stSize` bytes: the length given. `int size` keeps 32 bits of `st_size`. For sizes above
2^31 - 129 the sum `size + 128` overflows an `int`; taken as exact here. A failed `fread` is taken to write nothing. -/
def loadFile (r : Region) (stSize : Nat) : P Nat := do
  assertTerm (← sys) "load_file-stat"
  let size := stSize % 2 ^ 32
  assertTerm (decide (0 < size ∧ size < 2 ^ 31)) "load_file-size_test"
  assertTerm (← sys) "load_file-fopen"
  let ok ← sys
  assertTerm ok "load_file-malloc"
  .act (.malloc r (size + 128)) (.ret ())
  let ok ← sys
  if ok then .act (.fread r size) (.ret ()) else assertTerm false "load_file-fread"
  store r size 128 0
  pure size

/-- `clear_mem_data` (tools.cpp:47-54); the pointer is not null after `load_file`. -/
def clearMemData (r : Region) : P Unit := .act (.free r) (.ret ())

/-! ### mmap_handler.cpp -/

/-- mmap_handler.cpp:3-7. -/
def openMem : P Unit := do assertTerm (← sys) "MMapHandler-open"

/-- mmap_handler.cpp:14-19. -/
def mmap (r : Region) (base length : Nat) : P Unit := do
  let ok ← sys
  assertTerm ok "MMapHandler-mmap"
  .act (.mmap r base length) (.ret ())

/-! ### xilinx_dma.cpp -/

/-- Register offsets (xilinx_dma.h:7-15). -/
def mm2sControl : Nat := 0x00
def mm2sStatus : Nat := 0x04
def mm2sStart : Nat := 0x18
def mm2sLength : Nat := 0x28
def s2mmControl : Nat := 0x30
def s2mmStatus : Nat := 0x34
def s2mmDest : Nat := 0x48
def s2mmLength : Nat := 0x58

/-- `__dma_set` (xilinx_dma.cpp:108-111): word `offset>>2`. -/
def dmaSet (offset value : Nat) : P Unit := store .dma ((4 * (offset / 4) : Nat) : Int) 4 value
/-- `__dma_get` (xilinx_dma.cpp:113-116). -/
def dmaGet (offset : Nat) : P Nat := load .dma ((4 * (offset / 4) : Nat) : Int) 4

/-- The constructor (xilinx_dma.cpp:5-9). -/
def dmaOpen (base : Nat) : P Unit := do openMem; mmap .dma base 65535
/-- xilinx_dma.cpp:35-39. -/
def resetDma : P Unit := do dmaSet s2mmControl 4; dmaSet mm2sControl 4
/-- xilinx_dma.cpp:41-45. -/
def haltDma : P Unit := do dmaSet s2mmControl 0; dmaSet mm2sControl 0
/-- xilinx_dma.cpp:47-51. -/
def setDmaSrcDist (src dist : Nat) : P Unit := do dmaSet s2mmDest dist; dmaSet mm2sStart src
/-- xilinx_dma.cpp:53-57. -/
def startDma : P Unit := do dmaSet s2mmControl 0xf001; dmaSet mm2sControl 0xf001
/-- xilinx_dma.cpp:59-63. -/
def setDmaTransferLen (s2mm mm2s : Nat) : P Unit := do dmaSet s2mmLength s2mm; dmaSet mm2sLength mm2s

/-- The exit condition of `__dma_sync` (xilinx_dma.cpp:68): bits 12 and 1. -/
def syncDone (v : Nat) : Bool := v.testBit 12 && v.testBit 1
/-- `__dma_sync` (xilinx_dma.cpp:65-72). -/
def dmaSync (status : Nat) : P Unit := .wait .dma ((4 * (status / 4) : Nat) : Int) 4 syncDone (.ret ())

/-- `__dma_status` (xilinx_dma.cpp:74-105). -/
def statusText (status : Nat) : List String :=
  (if status &&& 0x00000001 ≠ 0 then ["halted"] else ["running"]) ++
  (if status &&& 0x00000002 ≠ 0 then ["idle"] else []) ++
  (if status &&& 0x00000008 ≠ 0 then ["SGIncld"] else []) ++
  (if status &&& 0x00000010 ≠ 0 then ["DMAIntErr"] else []) ++
  (if status &&& 0x00000020 ≠ 0 then ["DMASlvErr"] else []) ++
  (if status &&& 0x00000040 ≠ 0 then ["DMADecErr"] else []) ++
  (if status &&& 0x00000100 ≠ 0 then ["SGIntErr"] else []) ++
  (if status &&& 0x00000200 ≠ 0 then ["SGSlvErr"] else []) ++
  (if status &&& 0x00000400 ≠ 0 then ["SGDecErr"] else []) ++
  (if status &&& 0x00001000 ≠ 0 then ["IOC_Irq"] else []) ++
  (if status &&& 0x00002000 ≠ 0 then ["Dly_Irq"] else []) ++
  (if status &&& 0x00004000 ≠ 0 then ["Err_Irq"] else [])

def dmaStatus (status : Nat) : P (List String) := (dmaGet status).bind fun v => .ret (statusText v)

/-! ### core_axi_lite.cpp -/

/-- The driver functions of `Model/Driver.lean`: word `offset` of the window (core_axi_lite.cpp:103-111). -/
def ofProg {α : Type} : Prog α → P α
  | .ret a => .ret a
  | .get off k => .load .core ((4 * off : Nat) : Int) 4 fun v => ofProg (k v)
  | .set off v k => .act (.store .core ((4 * off : Nat) : Int) 4 v) (ofProg k)

/-- The constructor (core_axi_lite.cpp:5-11). -/
def coreOpen (base bd : Nat) : P Unit := do
  openMem
  assertTerm (decide (2 ≤ bd ∧ bd ≤ 16)) "CoreAXILite1"
  mmap .core base 65535

/-- The text of `get_ssss` (core_axi_lite.cpp:57). -/
def ssssText (l : List (Nat × Nat)) : List String :=
  l.zipIdx.map fun e => toString e.2 ++ " - " ++ "SSSS_CODE: " ++ toString e.1.1 ++ " - " ++ "LENGTH: " ++ toString e.1.2

/-- The eight loads of `get_debug` (core_axi_lite.cpp:73-75); `DEBUG_OFFSET` is 0x1000 (core_axi_lite.h:9). -/
def readDebug : Nat → Nat → P (List Nat)
  | 0, _ => .ret []
  | n + 1, i => (load .core ((4 * (0x1000 + i) : Nat) : Int) 4).bind fun v => (readDebug n (i + 1)).bind fun l => .ret (v :: l)

/-- core_axi_lite.cpp:64-71. -/
def debugIdent : List String := ["valid_in=0", "valid_in=1", "valid_out=0", "valid_out=1", "nready=1", "nready=0", "busy_in=1", "busy_in=0"]
def debugExplain : List String := ["valid_in: DMA have valid data for the core", "valid_out: Core have valid data for the DMA",
  "nready: Core don't have valid data for the DMA", "busy_in: DMA can't accept new data from the core"]

/-- `get_debug` (core_axi_lite.cpp:62-84). -/
def getDebug : P (List String) :=
  (readDebug 8 0).bind fun l => .ret (debugExplain ++ (debugIdent.zip l).map fun e => e.1 ++ " : " ++ toString e.2)

/-! ### xilinx_test.cpp -/

/-- config.h. -/
structure Config where
  dmaBase : Nat
  sourceBase : Nat
  destBase : Nat
  axiLite : Bool
  axiLiteBase : Nat
  debugReg : Bool
  bitDepth : Nat
  inputLength : Nat

/-- config.h:4-11, the values in the repository. -/
def config : Config := ⟨0x40400000, 0x10000000, 0x12000000, true, 0x83C00000, true, 12, 64⟩

/-- `print_vector` (xilinx_test.cpp:328-334). -/
def printVector (vec : List String) (title : String) : P Unit := (title :: vec).foldr (fun s k => .act (.say s) k) (.ret ())

/-- The pair of pixels at byte `c` (xilinx_test.cpp:176-177): four loads. -/
def loadPair (c : Nat) : P (Nat × Nat) := do
  let b0 ← load .raw12 (c : Int) 1
  let b1 ← load .raw12 ((c + 1 : Nat) : Int) 1
  let b1' ← load .raw12 ((c + 1 : Nat) : Int) 1
  let b2 ← load .raw12 ((c + 2 : Nat) : Int) 1
  pure ((b0 <<< 4) ||| ((b1 &&& 0xF0) >>> 4), ((b1' &&& 0x0F) <<< 8) ||| b2)

/-- One turn of the loop of `re_order_set_raw12_64bits` (xilinx_test.cpp:176-186), the `j`-th. -/
def turn64 (j : Nat) : P Unit := do
  let a ← loadPair (6 * j)
  let b ← loadPair (6 * j + 3)
  store .source ((8 * j : Nat) : Int) 8 (((a.1 <<< 52) ||| (a.2 <<< 40) ||| (b.1 <<< 28) ||| (b.2 <<< 16)) % 2 ^ 64)

/-- xilinx_test.cpp:167-188. -/
def reOrderSet64 : P Unit := loop turn64 (4096 * 3072 / 4) 0

/-- One turn of the loop of `re_order_set_raw12_32bits` (xilinx_test.cpp:199-205). -/
def turn32 (j : Nat) : P Unit := do
  let a ← loadPair (3 * j)
  store .source ((4 * j : Nat) : Int) 4 (((a.1 <<< 20) ||| (a.2 <<< 8)) % 2 ^ 32)

/-- xilinx_test.cpp:190-207. -/
def reOrderSet32 : P Unit := loop turn32 (4096 * 3072 / 2) 0

/-- `__builtin_bswap16`. -/
def bswap16 (v : Nat) : Nat := v % 256 * 256 + v / 256 % 256

/-- One turn of the loop of `re_order_lj92` (xilinx_test.cpp:214). -/
def turnSwap (j : Nat) : P Unit := do
  let v ← load .lj92 ((2 * j : Nat) : Int) 2
  store .lj92 ((2 * j : Nat) : Int) 2 (bswap16 v)

/-- xilinx_test.cpp:209-216. -/
def reOrderFile (len : Nat) : P Unit := loop turnSwap (divisible2 len / 2) 0

/-- `zero_dest` (xilinx_test.cpp:218-224). -/
def zeroDest : P Unit := loop (fun i => store .dest ((4 * i : Nat) : Int) 4 0) 0x800000 0

/-- `divisible_4` (xilinx_test.cpp:226-232). -/
def divisible4 (num : Nat) : Nat := (num + 3) / 4 * 4

/-- The loop of `check_first_marker` (xilinx_test.cpp:245-251): `n` turns from `i`. -/
def firstLoop : Nat → Nat → P Bool
  | 0, _ => .ret true
  | n + 1, i => (load .dest ((4 * i : Nat) : Int) 4).bind fun v =>
    if v != 0xFFFFFFFF then (log "No marker found.").bind fun _ => .ret false else firstLoop n (i + 1)

/-- xilinx_test.cpp:242-255. -/
def checkFirstMarker : P Unit := do
  let found ← firstLoop 4 0
  if found then log "marker found." else pure ()

/-- The search of `check_last_marker` (xilinx_test.cpp:260-266); the second load only if the first value is not FFFFFFFF. -/
def searchLoop : Nat → Nat → P Nat
  | 0, offset => .ret offset
  | n + 1, offset => (load .dest (offset : Int) 4).bind fun v =>
    if v == 0xFFFFFFFF then .ret offset
    else (load .dest (offset : Int) 4).bind fun v' => if v' == forceWord then .ret offset else searchLoop n (offset + 1)

/-- The comparison loop (xilinx_test.cpp:269-276). -/
def lastLoop (offset : Nat) : Nat → Nat → P Bool
  | 0, _ => .ret true
  | n + 1, i => (load .dest ((offset + 4 * i : Nat) : Int) 4).bind fun v =>
    if v != 0xFFFFFFFF then
      (load .dest ((offset + 4 * i : Nat) : Int) 4).bind fun v' =>
        if v' != forceWord then (log "No marker found.").bind fun _ => .ret false else lastLoop offset n (i + 1)
    else lastLoop offset n (i + 1)

/-- `check_last_marker` (xilinx_test.cpp:257-283). -/
def checkLastMarker (size : Nat) : P Unit := do
  let offset ← searchLoop 128 (size + 16)
  let found ← lastLoop offset 4 0
  if found then do
    let a ← load .dest (offset : Int) 4
    if a == 0xFFFFFFFF then log ("normal marker found - offset is " ++ toString (offset - size - 16) ++ ".") else pure ()
    let b ← load .dest (offset : Int) 4
    if b == forceWord then log ("force marker found - offset is " ++ toString (offset - size - 16) ++ ".") else pure ()
  else pure ()

/-- The first loop of `validate` (xilinx_test.cpp:291-303); `mem_dump` of pointers to words. -/
def wordLoop : Nat → Nat → P Bool
  | 0, _ => .ret true
  | n + 1, i => do
    let a ← load .dest ((16 + 4 * i : Nat) : Int) 4
    let b ← load .lj92 ((4 * i : Nat) : Int) 4
    if a != b then do
      log ("Validation failed at word: " ++ toString i)
      log "Dump core"
      memDump .dest ((16 + 4 * (i - 8) : Nat) : Int) 64
      log "Dump lj92"
      memDump .lj92 ((4 * (i - 8) : Nat) : Int) 64
      pure false
    else wordLoop n (i + 1)

/-- The second loop of `validate` (xilinx_test.cpp:308-320). -/
def byteLoop : Nat → Nat → P Bool
  | 0, _ => .ret true
  | n + 1, i => do
    let a ← load .dest ((16 + i : Nat) : Int) 1
    let b ← load .lj92 (i : Int) 1
    if a != b then do
      log ("Validation failed at byte: " ++ toString i)
      log "Dump core"
      memDump .dest ((16 + (i - 32) : Nat) : Int) 64
      log "Dump lj92"
      memDump .lj92 ((i - 32 : Nat) : Int) 64
      pure false
    else byteLoop n (i + 1)

/-- `validate` (xilinx_test.cpp:285-326). The start of the second loop is the `uint32_t` value `length - 10`; for shorter files it
wraps and the loop, whose comparison is unsigned, ends at once. -/
def validateMain (len : Nat) : P Unit := do
  let ok ← wordLoop (len / 4) 0
  if ok then do
    let ok ← byteLoop (if 10 ≤ len then 10 else 0) (len - 10)
    if ok then log "Validation succeeded." else pure ()
  else pure ()

/-- xilinx_test.cpp:80-95: size and cycle budget over the register driver, then print the table. -/
def configure (bd : Nat) : P Unit := do
  ofProg (setWidth 4096 (.ret ()))
  ofProg (setHeight 3072 (.ret ()))
  let w ← ofProg (getWidth .ret)
  log ("width: " ++ toString w)
  let h ← ofProg (getHeight .ret)
  log ("height: " ++ toString h)
  log "Set allowed cycles."
  ofProg (setAllowedCycles 0xFFFFFF (.ret ()))
  let a ← ofProg (getAllowedCycles .ret)
  log ("allowed_cycles: " ++ toString a)
  let l ← ofProg (getSsssProg bd .ret)
  printVector (ssssText l) "SSSS Data."

def printStatus : P Unit := do
  printVector (← dmaStatus s2mmStatus) "dma_s2mm_status"
  printVector (← dmaStatus mm2sStatus) "dma_mm2s_status"

/-- xilinx_test.cpp:36-75: mappings, files, preparation of both regions. The length of the reference file. -/
def prepare (c : Config) (argc rawSize ljSize : Nat) : P Nat := do
  log "asserting argc&argv."
  assertTerm (argc == 3) "You must provide source image and compressed image as parameters."
  openMem
  dmaOpen c.dmaBase
  log "MMap source & destination memories."
  mmap .source c.sourceBase 0x2000000
  mmap .dest c.destBase 0x2000000
  log "Load LJ92 img."
  let len ← loadFile .lj92 ljSize
  log ("LJ92 size: " ++ toString len)
  log "Load Raw12 img."
  let rawLen ← loadFile .raw12 rawSize
  assertTerm (decide (4096 * 3072 * 3 / 2 ≤ rawLen)) "Corrupted RAW12 file."
  log ("Raw12 size: " ++ toString rawLen)
  log "Re-order and set Raw12 into MMaped region."
  if c.inputLength == 64 then reOrderSet64 else reOrderSet32
  log "Remove Raw12 img form memory."
  clearMemData .raw12
  log "Re-order compressed LJ92 img."
  reOrderFile len
  log "Zero out the MMaped destination region."
  zeroDest
  pure len

/-- xilinx_test.cpp:77-102. -/
def setupCore (c : Config) : P Unit :=
  if c.axiLite then do
    log "AXI Lite is enabled."
    log "Set height and width."
    coreOpen c.axiLiteBase c.bitDepth
    configure c.bitDepth
  else do
    log "AXI Lite is not enabled."
    log "skip setting height, width and allowed cycles."

/-- xilinx_test.cpp:104-122. -/
def setupDma (c : Config) (len : Nat) : P Unit := do
  log "Reset DMA."
  resetDma
  printStatus
  log "Halt DMA."
  haltDma
  printStatus
  log "Writing src & dest addresses."
  setDmaSrcDist c.sourceBase c.destBase
  log "Starting DMA."
  startDma
  log "Writing transfer lengths."
  setDmaTransferLen (divisible4 (len + 1024)) (4096 * 3072 * 2)

/-- xilinx_test.cpp:124-128. -/
def waitDma : P Unit := do
  log "Waiting for MM2S synchronization."
  dmaSync mm2sStatus
  log "Waiting for S2MM synchronization."
  dmaSync s2mmStatus

/-- xilinx_test.cpp:130-165. -/
def examine (c : Config) (len : Nat) : P Unit := do
  log "LJ92 done."
  printStatus
  log "Dump first 256Bytes of LJ92 file."
  memDump .lj92 0 256
  log "Dump first 256Bytes of core."
  memDump .dest 0 256
  log "Dump last 256Bytes of LJ92 file."
  memDump .lj92 ((len : Int) - 256) 256
  log "Dump last 256Bytes of core."
  memDump .dest ((len : Int) - 256 + 16) 256
  log "Check for first marker."
  checkFirstMarker
  log "Check for last marker."
  checkLastMarker len
  log "Validate data."
  validateMain len
  if c.axiLite && c.debugReg then do
    coreOpen c.axiLiteBase c.bitDepth
    printVector (← getDebug) "Debugging data."
  else pure ()

/-- `main` (xilinx_test.cpp:31-165), for files of the given sizes. -/
def main (c : Config) (argc rawSize ljSize : Nat) : P Unit := do
  let len ← prepare c argc rawSize ljSize
  setupCore c
  setupDma c len
  waitDma
  examine c len

end Model.HostMain
