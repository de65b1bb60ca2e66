import Verif.Model.Asn1
import Verif.Model.Both
import Verif.Model.CTL
import Verif.Model.Cli
import Verif.Model.Context
import Verif.Model.CtlFile
import Verif.Model.Defaults
import Verif.Model.DerCms
import Verif.Model.DerSpc
import Verif.Model.Extensions
import Verif.Model.FileTime
import Verif.Model.Fingerprinter
import Verif.Model.Handle
import Verif.Model.Info
import Verif.Model.Keywords
import Verif.Model.Listing
import Verif.Model.Moments
import Verif.Model.Names
import Verif.Model.OneShot
import Verif.Model.OneShotFile
import Verif.Model.PEFile
import Verif.Model.Pem
import Verif.Model.Pkcs7
import Verif.Model.Py
import Verif.Model.Shared
import Verif.Model.SignedPE
import Verif.Model.StoreOps
import Verif.Model.Strikes
import Verif.Model.Threads
import Verif.Model.Together
import Verif.Model.TogetherPE
import Verif.Model.Verify
import Verif.Model.X509
import Verif.Model.Zones
import Verif.Proofs.Added
import Verif.Proofs.AsdVerify
import Verif.Proofs.Asn1
import Verif.Proofs.Asn1Native
import Verif.Proofs.Asn1Tree
import Verif.Proofs.Asn1Within
import Verif.Proofs.Both
import Verif.Proofs.CTL
import Verif.Proofs.Candidates
import Verif.Proofs.CertTable
import Verif.Proofs.Chains
import Verif.Proofs.Classes
import Verif.Proofs.ClassesCtl
import Verif.Proofs.ClassesParse
import Verif.Proofs.Clock
import Verif.Proofs.CtlFile
import Verif.Proofs.CtxVerify
import Verif.Proofs.Dating
import Verif.Proofs.DerAuth
import Verif.Proofs.DerCert
import Verif.Proofs.DerCms
import Verif.Proofs.DerCtl
import Verif.Proofs.DerFrom
import Verif.Proofs.DerSpc
import Verif.Proofs.DerTime
import Verif.Proofs.DerTree
import Verif.Proofs.DerTst
import Verif.Proofs.DerWithin
import Verif.Proofs.Dict
import Verif.Proofs.DnEscape
import Verif.Proofs.Essence
import Verif.Proofs.Expected
import Verif.Proofs.Extensions
import Verif.Proofs.FileTime
import Verif.Proofs.Files
import Verif.Proofs.Fingerprinter
import Verif.Proofs.FingerprinterTrace
import Verif.Proofs.FingerprinterView
import Verif.Proofs.Frame
import Verif.Proofs.Handle
import Verif.Proofs.History
import Verif.Proofs.Info
import Verif.Proofs.Keywords
import Verif.Proofs.Lifetime
import Verif.Proofs.Loading
import Verif.Proofs.Modes
import Verif.Proofs.Moments
import Verif.Proofs.MomentsFile
import Verif.Proofs.MomentsSound
import Verif.Proofs.Names
import Verif.Proofs.NoDict
import Verif.Proofs.OneShot
import Verif.Proofs.OneShotFile
import Verif.Proofs.PEErrors
import Verif.Proofs.PEFile
import Verif.Proofs.PEModes
import Verif.Proofs.Pem
import Verif.Proofs.Pkcs7
import Verif.Proofs.Pkcs7Errors
import Verif.Proofs.Ready
import Verif.Proofs.SameTime
import Verif.Proofs.Schema
import Verif.Proofs.SetOrder
import Verif.Proofs.Shared
import Verif.Proofs.SharedAlone
import Verif.Proofs.SignedPE
import Verif.Proofs.SignedPEImage
import Verif.Proofs.Sim
import Verif.Proofs.Stale
import Verif.Proofs.Stamps
import Verif.Proofs.Strikes
import Verif.Proofs.Text
import Verif.Proofs.Throws
import Verif.Proofs.Times
import Verif.Proofs.Together
import Verif.Proofs.TogetherAlone
import Verif.Proofs.TogetherAsd
import Verif.Proofs.TogetherPE
import Verif.Proofs.TogetherSound
import Verif.Proofs.TogetherThreads
import Verif.Proofs.Trials
import Verif.Proofs.Trust
import Verif.Proofs.Unnamed
import Verif.Proofs.Utf16
import Verif.Proofs.Verify
import Verif.Proofs.X509
import Verif.Proofs.Zones
import Verif.Props.Both
import Verif.Props.CTL
import Verif.Props.CertClasses
import Verif.Props.Classes
import Verif.Props.Cli
import Verif.Props.Clock
import Verif.Props.Complete
import Verif.Props.CtlFile
import Verif.Props.Custody
import Verif.Props.Dating
import Verif.Props.Defaults
import Verif.Props.Defects
import Verif.Props.Der
import Verif.Props.DerCtl
import Verif.Props.DerFrom
import Verif.Props.EndToEnd
import Verif.Props.Errors
import Verif.Props.Essence
import Verif.Props.Extensions
import Verif.Props.FileTime
import Verif.Props.Files
import Verif.Props.Fingerprinter
import Verif.Props.Growing
import Verif.Props.Handle
import Verif.Props.Indefinite
import Verif.Props.Info
import Verif.Props.Instances
import Verif.Props.Keywords
import Verif.Props.Listing
import Verif.Props.Malformed
import Verif.Props.Memory
import Verif.Props.Modes
import Verif.Props.Moments
import Verif.Props.MomentsFile
import Verif.Props.Names
import Verif.Props.OneShot
import Verif.Props.OneShotFile
import Verif.Props.PEFile
import Verif.Props.Pem
import Verif.Props.Pkcs7
import Verif.Props.Resign
import Verif.Props.Rounds
import Verif.Props.Shared
import Verif.Props.SignedPE
import Verif.Props.Signer
import Verif.Props.Stale
import Verif.Props.StoreOps
import Verif.Props.Strikes
import Verif.Props.Supplied
import Verif.Props.Text
import Verif.Props.Threads
import Verif.Props.Times
import Verif.Props.Together
import Verif.Props.TogetherPE
import Verif.Props.Trials
import Verif.Props.Unnamed
import Verif.Props.Value
import Verif.Props.Verify
import Verif.Props.VerifyClasses
import Verif.Props.X509
import Verif.Props.Zones
import Verif.Spec.Both
import Verif.Spec.Classes
import Verif.Spec.Cli
import Verif.Spec.Clock
import Verif.Spec.Complete
import Verif.Spec.CtlFile
import Verif.Spec.Custody
import Verif.Spec.Dating
import Verif.Spec.Defaults
import Verif.Spec.Der
import Verif.Spec.DerAuth
import Verif.Spec.DerCms
import Verif.Spec.DerCtl
import Verif.Spec.DerFrom
import Verif.Spec.EndToEnd
import Verif.Spec.Errors
import Verif.Spec.Essence
import Verif.Spec.Extensions
import Verif.Spec.Files
import Verif.Spec.Fingerprinter
import Verif.Spec.Handle
import Verif.Spec.Info
import Verif.Spec.Keywords
import Verif.Spec.Memory
import Verif.Spec.Moments
import Verif.Spec.Names
import Verif.Spec.OneShot
import Verif.Spec.OneShotFile
import Verif.Spec.PEFile
import Verif.Spec.Pem
import Verif.Spec.Pkcs7
import Verif.Spec.Rounds
import Verif.Spec.Shared
import Verif.Spec.SignedPE
import Verif.Spec.StoreOps
import Verif.Spec.Strikes
import Verif.Spec.Text
import Verif.Spec.Threads
import Verif.Spec.Times
import Verif.Spec.Together
import Verif.Spec.TogetherPE
import Verif.Spec.Trials
import Verif.Spec.Unnamed
import Verif.Spec.Value
import Verif.Spec.Verify
import Verif.Spec.VerifyClasses
import Verif.Spec.X509
import Verif.Spec.Zones
