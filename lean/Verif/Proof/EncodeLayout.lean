import Verif.Proof.Encode
/-! # Bytes written and fields stored: the common layout tables, the lists and the directory -/

namespace OpenType
open Spec coverage class_ correction context

instance : WrittenFlat IsCoverageRecord valid 6 where
  iff := by intros; written [IsCoverageRecord] [instEncodeRecord, instValidRecord]
  size := by sized [instEncodeRecord]

instance : Written IsCoverage1 valid where
  iff := by intros; written [IsCoverage1] [instEncodeCoverage1, instValidCoverage1]

instance : Written IsCoverage2 valid where
  iff := by intros; written [IsCoverage2] [instEncodeCoverage2, instValidCoverage2]

instance : Written IsCoverage valid where
  iff := by rintro d p (t | t) <;> written [IsCoverage] [instEncodeCoverage, instValidCoverage]

instance : WrittenFlat IsClassRecord valid 6 where
  iff := by intros; written [IsClassRecord] [instEncodeRecord_1, instValidRecord_1]
  size := by sized [instEncodeRecord_1]

instance : Written IsClass1 valid where
  iff := by intros; written [IsClass1] [instEncodeClass1, instValidClass1]

instance : Written IsClass2 valid where
  iff := by intros; written [IsClass2] [instEncodeClass2, instValidClass2]

instance : Written IsClass valid where
  iff := by rintro d p (t | t) <;> written [IsClass] [instEncodeClass, instValidClass]

instance : Written IsDevice valid where
  iff := by intros; written [IsDevice] [instEncodeDevice, instValidDevice]

instance : Written IsVariation valid where
  iff := by intros; written [IsVariation] [instEncodeVariation, instValidVariation]

instance : Written IsCorrection valid where
  iff := by rintro d p (t | t) <;> written [IsCorrection] [instEncodeCorrection, instValidCorrection]

instance : WrittenFlat IsAction valid 4 where
  iff := by intros; written [IsAction] [instEncodeAction, instValidAction]
  size := by sized [instEncodeAction]

instance : Written IsRecord valid where
  iff := by intros; written [IsRecord] [instEncodeRecord_2, instValidRecord_2]

instance : Written IsRecords valid where
  iff := by intros; written [IsRecords] [instEncodeRecords, instValidRecords]

instance : Written IsContextClassRecord valid where
  iff := by intros; written [IsContextClassRecord] [instEncodeClassRecord, instValidClassRecord]

instance : Written IsClassRecords valid where
  iff := by intros; written [IsClassRecords] [instEncodeClassRecords, instValidClassRecords]

instance : Written IsChainedRecord valid where
  iff := by intros; written [IsChainedRecord] [instEncodeChainedRecord, instValidChainedRecord]

instance : Written IsChainedRecords valid where
  iff := by intros; written [IsChainedRecords] [instEncodeChainedRecords, instValidChainedRecords]

instance : Written IsChainedClassRecord valid where
  iff := by
    intros; written [IsChainedClassRecord] [instEncodeChainedClassRecord, instValidChainedClassRecord]

instance : Written IsChainedClassRecords valid where
  iff := by
    intros
    written [IsChainedClassRecords] [instEncodeChainedClassRecords, instValidChainedClassRecords]

instance : Written IsContext1 valid where
  iff := by intros; written [IsContext1] [instEncodeContext1, instValidContext1]

instance : Written IsContext2 valid where
  iff := by intros; written [IsContext2] [instEncodeContext2, instValidContext2]

instance : Written IsContext3 valid where
  iff := by intros; written [IsContext3] [instEncodeContext3, instValidContext3]

instance : Written IsContext valid where
  iff := by rintro d p (t | t | t) <;> written [IsContext] [instEncodeContext, instValidContext]

instance : Written IsChainedContext1 valid where
  iff := by intros; written [IsChainedContext1] [instEncodeChainedContext1, instValidChainedContext1]

instance : Written IsChainedContext2 valid where
  iff := by intros; written [IsChainedContext2] [instEncodeChainedContext2, instValidChainedContext2]

instance : Written IsChainedContext3 valid where
  iff := by intros; written [IsChainedContext3] [instEncodeChainedContext3, instValidChainedContext3]

instance : Written IsChainedContext valid where
  iff := by
    rintro d p (t | t | t) <;>
      written [IsChainedContext] [instEncodeChainedContext, instValidChainedContext]

end OpenType
