/-!
# The matcher classes

Generated by `tools/gen_tables.py` from `/repo/paconvert/api_matcher.py` and `base.py`. Do not edit.
-/

namespace Verif.Data

/-- The classes defined in api_matcher.py, and `BaseMatcher`, which it imports. -/
def matcherClasses : List Nat := [
  0x4641526d734e6f726d /- FARmsNorm -/,
  0x4c754d617463686572 /- LuMatcher -/,
  0x51724d617463686572 /- QrMatcher -/,
  0x4d61784d617463686572 /- MaxMatcher -/,
  0x4d696e4d617463686572 /- MinMatcher -/,
  0x5061644d617463686572 /- PadMatcher -/,
  0x524e4e4d617463686572 /- RNNMatcher -/,
  0x5376644d617463686572 /- SvdMatcher -/,
  0x5647474d617463686572 /- VGGMatcher -/,
  0x426173654d617463686572 /- BaseMatcher -/,
  0x457266434d617463686572 /- ErfCMatcher -/,
  0x457870324d617463686572 /- Exp2Matcher -/,
  0x47656c754d617463686572 /- GeluMatcher -/,
  0x496e69744d617463686572 /- InitMatcher -/,
  0x4c6f61644d617463686572 /- LoadMatcher -/,
  0x4e6f726d4d617463686572 /- NormMatcher -/,
  0x536565644d617463686572 /- SeedMatcher -/,
  0x53697a654d617463686572 /- SizeMatcher -/,
  0x536f72744d617463686572 /- SortMatcher -/,
  0x537466744d617463686572 /- StftMatcher -/,
  0x4164644d524d617463686572 /- AddMRMatcher -/,
  0x43696661724d617463686572 /- CifarMatcher -/,
  0x457175616c4d617463686572 /- EqualMatcher -/,
  0x457266435f4d617463686572 /- ErfC_Matcher -/,
  0x45787069744d617463686572 /- ExpitMatcher -/,
  0x48697374634d617463686572 /- HistcMatcher -/,
  0x4d4e4953544d617463686572 /- MNISTMatcher -/,
  0x4d536f72744d617463686572 /- MSortMatcher -/,
  0x4d616b65544d617463686572 /- MakeTMatcher -/,
  0x4e756d656c4d617463686572 /- NumelMatcher -/,
  0x506f6c61724d617463686572 /- PolarMatcher -/,
  0x52616e67654d617463686572 /- RangeMatcher -/,
  0x526f756e644d617463686572 /- RoundMatcher -/,
  0x53657455704d617463686572 /- SetUpMatcher -/,
  0x53706c69744d617463686572 /- SplitMatcher -/,
  0x584c6f67594d617463686572 /- XLogYMatcher -/,
  0x416464426d6d4d617463686572 /- AddBmmMatcher -/,
  0x4164644d525f4d617463686572 /- AddMR_Matcher -/,
  0x4172616e67654d617463686572 /- ArangeMatcher -/,
  0x4173736572744d617463686572 /- AssertMatcher -/,
  0x4372656174654d617463686572 /- CreateMatcher -/,
  0x44656c6574654d617463686572 /- DeleteMatcher -/,
  0x4465746163684d617463686572 /- DetachMatcher -/,
  0x4469766964654d617463686572 /- DivideMatcher -/,
  0x4c6f674465744d617463686572 /- LogDetMatcher -/,
  0x4e5475706c654d617463686572 /- NTupleMatcher -/,
  0x4e6172726f774d617463686572 /- NarrowMatcher -/,
  0x53656c6563744d617463686572 /- SelectMatcher -/,
  0x53796d6569674d617463686572 /- SymeigMatcher -/,
  0x54656e736f724d617463686572 /- TensorMatcher -/,
  0x584c6f67595f4d617463686572 /- XLogY_Matcher -/,
  0x414d696e4d61784d617463686572 /- AMinMaxMatcher -/,
  0x416464426d6d5f4d617463686572 /- AddBmm_Matcher -/,
  0x416464434469764d617463686572 /- AddCDivMatcher -/,
  0x416464434d756c4d617463686572 /- AddCMulMatcher -/,
  0x41646a6f696e744d617463686572 /- AdjointMatcher -/,
  0x4174747269627574653246756e63 /- Attribute2Func -/,
  0x417667506f6f6c4d617463686572 /- AvgPoolMatcher -/,
  0x43616e436173744d617463686572 /- CanCastMatcher -/,
  0x466f72656163684d617463686572 /- ForeachMatcher -/,
  0x46756e6332417474726962757465 /- Func2Attribute -/,
  0x47525543656c6c4d617463686572 /- GRUCellMatcher -/,
  0x47656e657269634d617463686572 /- GenericMatcher -/,
  0x4875624c6f61644d617463686572 /- HubLoadMatcher -/,
  0x496e69744579654d617463686572 /- InitEyeMatcher -/,
  0x4a6974536176654d617463686572 /- JitSaveMatcher -/,
  0x4e6f6e7a65726f4d617463686572 /- NonzeroMatcher -/,
  0x524e4e426173654d617463686572 /- RNNBaseMatcher -/,
  0x524e4e43656c6c4d617463686572 /- RNNCellMatcher -/,
  0x52616e64696e744d617463686572 /- RandintMatcher -/,
  0x5344504174746e4d617463686572 /- SDPAttnMatcher -/,
  0x534c6f674465744d617463686572 /- SLogDetMatcher -/,
  0x536574547275654d617463686572 /- SetTrueMatcher -/,
  0x536f66746d61784d617463686572 /- SoftmaxMatcher -/,
  0x536f66746d696e4d617463686572 /- SoftminMatcher -/,
  0x5374644d65616e4d617463686572 /- StdMeanMatcher -/,
  0x54656e736f72484d617463686572 /- TensorHMatcher -/,
  0x5661724d65616e4d617463686572 /- VarMeanMatcher -/,
  0x576569676874734d617463686572 /- WeightsMatcher -/,
  0x416464434469765f4d617463686572 /- AddCDiv_Matcher -/,
  0x416464434d756c5f4d617463686572 /- AddCMul_Matcher -/,
  0x416c6c636c6f73654d617463686572 /- AllcloseMatcher -/,
  0x43756461536565644d617463686572 /- CudaSeedMatcher -/,
  0x44696d4f726465724d617463686572 /- DimOrderMatcher -/,
  0x46536f66744d696e4d617463686572 /- FSoftMinMatcher -/,
  0x46536f66746d61784d617463686572 /- FSoftmaxMatcher -/,
  0x4765745f456e756d4d617463686572 /- Get_EnumMatcher -/,
  0x496e6465784164644d617463686572 /- IndexAddMatcher -/,
  0x4c53544d43656c6c4d617463686572 /- LSTMCellMatcher -/,
  0x4c696e616c674c754d617463686572 /- LinalgLuMatcher -/,
  0x4d657368677269644d617463686572 /- MeshgridMatcher -/,
  0x4d6f64756c65546f4d617463686572 /- ModuleToMatcher -/,
  0x52616e644c696b654d617463686572 /- RandLikeMatcher -/,
  0x53657446616c73654d617463686572 /- SetFalseMatcher -/,
  0x54656e736f724d684d617463686572 /- TensorMhMatcher -/,
  0x54656e736f724d744d617463686572 /- TensorMtMatcher -/,
  0x54656e736f72546f4d617463686572 /- TensorToMatcher -/,
  0x5a65726f477261644d617463686572 /- ZeroGradMatcher -/,
  0x4368616e67654150494d617463686572 /- ChangeAPIMatcher -/,
  0x456d62656464696e674d617463686572 /- EmbeddingMatcher -/,
  0x47656e657261746f724d617463686572 /- GeneratorMatcher -/,
  0x4765744c6f676765724d617463686572 /- GetLoggerMatcher -/,
  0x486973746f6772616d4d617463686572 /- HistogramMatcher -/,
  0x496e646578436f70794d617463686572 /- IndexCopyMatcher -/,
  0x49734e6f6e7a65726f4d617463686572 /- IsNonzeroMatcher -/,
  0x49735f50696e6e65644d617463686572 /- Is_PinnedMatcher -/,
  0x4c696e616c675f71724d617463686572 /- Linalg_qrMatcher -/,
  0x4c755f756e7061636b4d617463686572 /- Lu_unpackMatcher -/,
  0x4f7074696d4164616d4d617463686572 /- OptimAdamMatcher -/,
  0x52706352656d6f74654d617463686572 /- RpcRemoteMatcher -/,
  0x54656e736f724164644d617463686572 /- TensorAddMatcher -/,
  0x54656e736f72496e744d617463686572 /- TensorIntMatcher -/,
  0x54656e736f724d61784d617463686572 /- TensorMaxMatcher -/,
  0x54656e736f724d696e4d617463686572 /- TensorMinMatcher -/,
  0x54656e736f725365744d617463686572 /- TensorSetMatcher -/,
  0x5472616e73706f73654d617463686572 /- TransposeMatcher -/,
  0x41445661726961626c654d617463686572 /- ADVariableMatcher -/,
  0x436865636b506f696e744d617463686572 /- CheckPointMatcher -/,
  0x436f6e7374616e744c524d617463686572 /- ConstantLRMatcher -/,
  0x4375646153747265616d4d617463686572 /- CudaStreamMatcher -/,
  0x4465636f64654a7065674d617463686572 /- DecodeJpegMatcher -/,
  0x44657669636532496e744d617463686572 /- Device2IntMatcher -/,
  0x446576696365325374724d617463686572 /- Device2StrMatcher -/,
  0x466c6f6174506f7765724d617463686572 /- FloatPowerMatcher -/,
  0x466c6f776572733130324d617463686572 /- Flowers102Matcher -/,
  0x46726f6d4275666665724d617463686572 /- FromBufferMatcher -/,
  0x4c6f67416464457870324d617463686572 /- LogAddExp2Matcher -/,
  0x4c6f67536f66746d61784d617463686572 /- LogSoftmaxMatcher -/,
  0x4d50437075436f756e744d617463686572 /- MPCpuCountMatcher -/,
  0x4e6172726f77436f70794d617463686572 /- NarrowCopyMatcher -/,
  0x4f6e654379636c654c524d617463686572 /- OneCycleLRMatcher -/,
  0x4f6e6e784578706f72744d617463686572 /- OnnxExportMatcher -/,
  0x506164646c65466c61674d617463686572 /- PaddleFlagMatcher -/,
  0x5265717569726544696d4d617463686572 /- RequireDimMatcher -/,
  0x53657175656e7469616c4d617463686572 /- SequentialMatcher -/,
  0x54656e736f72424631364d617463686572 /- TensorBF16Matcher -/,
  0x54656e736f72426f6f6c4d617463686572 /- TensorBoolMatcher -/,
  0x54656e736f72427974654d617463686572 /- TensorByteMatcher -/,
  0x54656e736f72436861724d617463686572 /- TensorCharMatcher -/,
  0x54656e736f72465031364d617463686572 /- TensorFP16Matcher -/,
  0x54656e736f724c6f6e674d617463686572 /- TensorLongMatcher -/,
  0x54656e736f724e65775f4d617463686572 /- TensorNew_Matcher -/,
  0x54656e736f7253697a654d617463686572 /- TensorSizeMatcher -/,
  0x54656e736f72536b69704d617463686572 /- TensorSkipMatcher -/,
  0x54656e736f72537466744d617463686572 /- TensorStftMatcher -/,
  0x54656e736f7254616b654d617463686572 /- TensorTakeMatcher -/,
  0x54656e736f7254696c654d617463686572 /- TensorTileMatcher -/,
  0x54656e736f72547970654d617463686572 /- TensorTypeMatcher -/,
  0x54656e736f72566965774d617463686572 /- TensorViewMatcher -/,
  0x45696e6f7073546f7263684d617463686572 /- EinopsTorchMatcher -/,
  0x466f7265616368457266634d617463686572 /- ForeachErfcMatcher -/,
  0x4c525363686564756c65724d617463686572 /- LRSchedulerMatcher -/,
  0x4c696e616c67496e7645784d617463686572 /- LinalgInvExMatcher -/,
  0x52616e64696e744c696b654d617463686572 /- RandintLikeMatcher -/,
  0x5363616c61626c655661724d617463686572 /- ScalableVarMatcher -/,
  0x53697a65417665726167654d617463686572 /- SizeAverageMatcher -/,
  0x5370656369616c4e6474724d617463686572 /- SpecialNdtrMatcher -/,
  0x54656e736f72436f70795f4d617463686572 /- TensorCopy_Matcher -/,
  0x54656e736f72466c6f61744d617463686572 /- TensorFloatMatcher -/,
  0x54656e736f72526f756e644d617463686572 /- TensorRoundMatcher -/,
  0x54656e736f7253686170654d617463686572 /- TensorShapeMatcher -/,
  0x54656e736f7253686f72744d617463686572 /- TensorShortMatcher -/,
  0x54656e736f7253706c69744d617463686572 /- TensorSplitMatcher -/,
  0x54656e736f7257686572654d617463686572 /- TensorWhereMatcher -/,
  0x546f72636854656e736f724d617463686572 /- TorchTensorMatcher -/,
  0x5f4d61784d696e4d61746368657242617365 /- _MaxMinMatcherBase -/,
  0x426f786573436f6e766572744d617463686572 /- BoxesConvertMatcher -/,
  0x436861696e5f4d61746d756c4d617463686572 /- Chain_MatmulMatcher -/,
  0x4368616e67655072656669784d617463686572 /- ChangePrefixMatcher -/,
  0x446f75626c6541737369676e4d617463686572 /- DoubleAssignMatcher -/,
  0x466f7265616368457266635f4d617463686572 /- ForeachErfc_Matcher -/,
  0x49735f496e666572656e63654d617463686572 /- Is_InferenceMatcher -/,
  0x4d6f64756c654765745375624d617463686572 /- ModuleGetSubMatcher -/,
  0x4f73456e7669726f6e4765744d617463686572 /- OsEnvironGetMatcher -/,
  0x536561726368736f727465644d617463686572 /- SearchsortedMatcher -/,
  0x536c696365536361747465724d617463686572 /- SliceScatterMatcher -/,
  0x5370656369616c45726663784d617463686572 /- SpecialErfcxMatcher -/,
  0x5370656369616c4e647472694d617463686572 /- SpecialNdtriMatcher -/,
  0x54656e736f7243666c6f61744d617463686572 /- TensorCfloatMatcher -/,
  0x54656e736f724469766964654d617463686572 /- TensorDivideMatcher -/,
  0x54656e736f72446f75626c654d617463686572 /- TensorDoubleMatcher -/,
  0x54656e736f72457870616e644d617463686572 /- TensorExpandMatcher -/,
  0x54656e736f724973437564614d617463686572 /- TensorIsCudaMatcher -/,
  0x54656e736f7252656e616d654d617463686572 /- TensorRenameMatcher -/,
  0x54656e736f72526573697a654d617463686572 /- TensorResizeMatcher -/,
  0x54656e736f72526f756e645f4d617463686572 /- TensorRound_Matcher -/,
  0x54656e736f725374726964654d617463686572 /- TensorStrideMatcher -/,
  0x54656e736f72546f426f6f6c4d617463686572 /- TensorToBoolMatcher -/,
  0x54656e736f725479706541734d617463686572 /- TensorTypeAsMatcher -/,
  0x547269706c6541737369676e4d617463686572 /- TripleAssignMatcher -/,
  0x564f43446574656374696f6e4d617463686572 /- VOCDetectionMatcher -/,
  0x466f726561636854656e736f724d617463686572 /- ForeachTensorMatcher -/,
  0x4765744e756d546872656164734d617463686572 /- GetNumThreadsMatcher -/,
  0x496e666572656e63654d6f64654d617463686572 /- InferenceModeMatcher -/,
  0x4c696e616c674c75536f6c76654d617463686572 /- LinalgLuSolveMatcher -/,
  0x536361747465725265647563654d617463686572 /- ScatterReduceMatcher -/,
  0x5365744e756d546872656164734d617463686572 /- SetNumThreadsMatcher -/,
  0x5369676e616c57696e646f777357617463686572 /- SignalWindowsWatcher -/,
  0x537061727365536f66746d61784d617463686572 /- SparseSoftmaxMatcher -/,
  0x54656e736f7243646f75626c654d617463686572 /- TensorCdoubleMatcher -/,
  0x54656e736f72446174617365744d617463686572 /- TensorDatasetMatcher -/,
  0x54656e736f724e657746756c6c4d617463686572 /- TensorNewFullMatcher -/,
  0x54656e736f72526573686170654d617463686572 /- TensorReshapeMatcher -/,
  0x44657669636532537472426173654d617463686572 /- Device2StrBaseMatcher -/,
  0x4f7074696d4f7074696d697a65724d617463686572 /- OptimOptimizerMatcher -/,
  0x526576657273654173796e634f704d617463686572 /- ReverseAsyncOpMatcher -/,
  0x5370656369616c584c6f673170594d617463686572 /- SpecialXLog1pYMatcher -/,
  0x54656e736f7246756e6332506164646c6546756e63 /- TensorFunc2PaddleFunc -/,
  0x54656e736f7249735369676e65644d617463686572 /- TensorIsSignedMatcher -/,
  0x54656e736f724d756c7469706c794d617463686572 /- TensorMultiplyMatcher -/,
  0x54656e736f7253756274726163744d617463686572 /- TensorSubtractMatcher -/,
  0x5574696c735365744d6f64756c654d617463686572 /- UtilsSetModuleMatcher -/,
  0x4173736572745f416c6c636c6f73654d617463686572 /- Assert_AllcloseMatcher -/,
  0x42726f6164636173745368617065734d617463686572 /- BroadcastShapesMatcher -/,
  0x43756461476574526e6753746174654d617463686572 /- CudaGetRngStateMatcher -/,
  0x437564614973417661696c61626c654d617463686572 /- CudaIsAvailableMatcher -/,
  0x4641466c6173684174746e46756e634d617463686572 /- FAFlashAttnFuncMatcher -/,
  0x526576657273654d6f6d656e74756d4d617463686572 /- ReverseMomentumMatcher -/,
  0x5365745072696e744f7074696f6e734d617463686572 /- SetPrintOptionsMatcher -/,
  0x54656e736f72496e646578436f70794d617463686572 /- TensorIndexCopyMatcher -/,
  0x54656e736f724e657754656e736f724d617463686572 /- TensorNewTensorMatcher -/,
  0x54656e736f725472616e73706f73654d617463686572 /- TensorTransposeMatcher -/,
  0x546f726368446576696365325374724d617463686572 /- TorchDevice2StrMatcher -/,
  0x547269616e67756c6172536f6c76654d617463686572 /- TriangularSolveMatcher -/,
  0x4375646e6e4973417661696c61626c654d617463686572 /- CudnnIsAvailableMatcher -/,
  0x46756e6374696f6e616c4c696e6561724d617463686572 /- FunctionalLinearMatcher -/,
  0x46756e6374696f6e616c4f6e65486f744d617463686572 /- FunctionalOneHotMatcher -/,
  0x4c696e616c6743686f6c65736b7945784d617463686572 /- LinalgCholeskyExMatcher -/,
  0x4e756d3254656e736f7242696e6172794d617463686572 /- Num2TensorBinaryMatcher -/,
  0x54656e736f724d61736b656446696c6c4d617463686572 /- TensorMaskedFillMatcher -/,
  0x54656e736f72526573686170655f61734d617463686572 /- TensorReshape_asMatcher -/,
  0x54656e736f72526573697a655f61735f4d617463686572 /- TensorResize_as_Matcher -/,
  0x437564614e76747852616e6765507573684d617463686572 /- CudaNvtxRangePushMatcher -/,
  0x466c6f6174506f776572496e706c6163654d617463686572 /- FloatPowerInplaceMatcher -/,
  0x4f7074696d324c725363686564756c65724d617463686572 /- Optim2LrSchedulerMatcher -/,
  0x53696d706c655363616c61626c655661724d617463686572 /- SimpleScalableVarMatcher -/,
  0x54656e736f72546f537061727365436f6f4d617463686572 /- TensorToSparseCooMatcher -/,
  0x44697374726962757465644261636b656e644d617463686572 /- DistributedBackendMatcher -/,
  0x46756e6374696f6e616c42696c696e6561724d617463686572 /- FunctionalBilinearMatcher -/,
  0x54656e736f725265717569726573477261644d617463686572 /- TensorRequiresGradMatcher -/,
  0x416c6c476174686572496e746f54656e736f724d617463686572 /- AllGatherIntoTensorMatcher -/,
  0x43554441416e64437070457874656e73696f6e4d617463686572 /- CUDAAndCppExtensionMatcher -/,
  0x4653506172616c6c656c456d62656464696e674d617463686572 /- FSParallelEmbeddingMatcher -/,
  0x5265647563655363617474657254656e736f724d617463686572 /- ReduceScatterTensorMatcher -/,
  0x5452464d507265547261696e65644d6f64656c4d617463686572 /- TRFMPreTrainedModelMatcher -/,
  0x54656e736f725265717569726573477261645f4d617463686572 /- TensorRequiresGrad_Matcher -/,
  0x5472616e73666f726d65727347656e657269634d617463686572 /- TransformersGenericMatcher -/,
  0x46414170706c79526f74617279456d6246756e634d617463686572 /- FAApplyRotaryEmbFuncMatcher -/,
  0x4765744e756d496e7465726f70546872656164734d617463686572 /- GetNumInteropThreadsMatcher -/,
  0x53657444656661756c7454656e736f72547970654d617463686572 /- SetDefaultTensorTypeMatcher -/,
  0x5365744e756d496e7465726f70546872656164734d617463686572 /- SetNumInteropThreadsMatcher -/,
  0x4672616374696f6e616c5f4d61785f706f6f6c32644d617463686572 /- Fractional_Max_pool2dMatcher -/,
  0x4672616374696f6e616c5f4d61785f706f6f6c33644d617463686572 /- Fractional_Max_pool3dMatcher -/,
  0x4c696e616c67536f6c7665547269616e67756c61724d617463686572 /- LinalgSolveTriangularMatcher -/,
  0x54656e736f72547269616e67756c6172536f6c76654d617463686572 /- TensorTriangularSolveMatcher -/,
  0x4641466c6173684174746e556e70616464656446756e634d617463686572 /- FAFlashAttnUnpaddedFuncMatcher -/,
  0x54656e736f72496e706c61636552657365727665547970654d617463686572 /- TensorInplaceReserveTypeMatcher -/,
  0x4653496e697469616c697a654d6f64656c506172616c6c656c4d617463686572 /- FSInitializeModelParallelMatcher -/,
  0x4e756d3254656e736f7242696e61727957697468416c7068614d617463686572 /- Num2TensorBinaryWithAlphaMatcher -/,
  0x4e756d3254656e736f7242696e617279436f6e76657274547970654d617463686572 /- Num2TensorBinaryConvertTypeMatcher -/,
  0x53657450657250726f636573734d656d6f72794672616374696f6e4d617463686572 /- SetPerProcessMemoryFractionMatcher -/,
  0x46534d6f64656c506172616c6c656c4973496e697469616c697a65644d617463686572 /- FSModelParallelIsInitializedMatcher -/,
  0x54656e736f7244697669646557697468526f756e64696e674d6f64654d617463686572 /- TensorDivideWithRoundingModeMatcher -/,
  0x5472616e73666f726d73506f736974697665446566696e6974655472616e73666f726d4d617463686572 /- TransformsPositiveDefiniteTransformMatcher -/]

end Verif.Data
