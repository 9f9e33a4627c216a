import Verif.Core.Mem
import Verif.Num.Lemmas
import Verif.IntPrint.Props
import Verif.IntScan.Props
import Verif.Leb.Props
import Verif.Lebe.Props
import Verif.IoBuf.OutProps
import Verif.IoBuf.InProps
import Verif.IoBuf.AllProps
import Verif.IoBuf.View
import Verif.Hash.Props
import Verif.Hash.SimdProps
import Verif.Simd.Props
import Verif.Arith.Props
import Verif.Time.Props
import Verif.Utf.Props
import Verif.Ip.Props
import Verif.Ip.ChunkPort
import Verif.Copy.Props
import Verif.Width.Props
import Verif.Indent.Props
import Verif.Vec.Props
import Verif.Print.Props
import Verif.To.Props
import Verif.Line.Props
import Verif.Http.Props
import Verif.Crypto.Props
import Verif.CharCat.Props
import Verif.Fs.Props
import Verif.Mode.Props
import Verif.Float.HexProps
import Verif.Float.RtProps
import Verif.Lc.Props
import Verif.TsText.Props
import Verif.Forms.Props
import Verif.Range.Props
import Verif.Scan.Props
import Verif.Deco.Props
import Verif.Own.Props
import Verif.Load.Props
import Verif.LcFloat.Props
import Verif.Conc.Props
import Verif.LcPrint.Props
import Verif.BufObj.Props
import Verif.AtOps.Props
import Verif.DirIter.Props
import Verif.Gb.Props
import Verif.Gb.Pieces
import Verif.Mmap.Props
import Verif.Mmap.Stream
import Verif.Flock.Props
import Verif.Cplx.Props
import Verif.Float.DistinctProps
import Verif.Float.DistinctHex
import Verif.Child.Props
import Verif.Child.ProcProps
import Verif.Rand.Props
import Verif.IntPrint.UprsvProps
