{
"DecodeParms.prog exDecodeParms": "b!\"<</Predictor 15/K 1/DamagedRowsBeforeError 1/A 3>>\"",
"Stream.write exStream": "b!\"5 0 obj\\n<</Length 2/Filter/Crypt/DecodeParms<</Predictor 15>>/A 3>>\\nstream\\nxy\\nendstream\\nendobj\\n\"",
"NameTree.prog exNameTree": "b!\"<</Kids[7 0 R]/Names[(A)4]>>\"",
"NumberTree.prog exNumberTree": "b!\"<</Kids[7 0 R]/Nums[1 4]/Limits[1 1]>>\"",
"Destination.prog exDestination": "b!\"[7 0 R/FitH 1/FitB 3]\"",
"FileSpec.prog exFileSpec": "b!\"<</Type/Filespec/FS/A/V true/EF<</F 7 0 R/UF 7 0 R>>/A 3>>\"",
"EmbeddingParams.prog exEmbeddingParams": "b!\"<</Size 1/CheckSum(A)/A 3>>\"",
"EmbeddedFile.write exEmbeddedFile": "b!\"5 0 obj\\n<</Length 2/Type/EmbeddedFile/Subtype/A/Params<</Size 1>>/Filter/Crypt>>\\nstream\\nxy\\nendstream\\nendobj\\n\"",
"Transition.prog exTransition": "b!\"<</Type/Trans/S/Fade/Dm/V/Di 180/A 3>>\"",
"MediaPermissions.prog exMediaPermissions": "b!\"<</Type/MediaPermissions/TF(TEMPALWAYS)/A 3>>\"",
"MediaPlayParams.prog exMediaPlayParams": "b!\"<</Type/MediaPlayParams/BE<</C true>>/A 3>>\"",
"MediaClip.prog exMediaClip": "b!\"<</Type/MediaClip/S/MCS/D<</Type/Filespec/FS/A>>/P<</Type/MediaPermissions/TF(TEMPALWAYS)>>/A 3>>\"",
"Rendition.prog exRendition": "b!\"<</Type/Rendition/S/SR/N(a)/P<</Type/MediaPlayParams/BE<</C true>>>>/A 3>>\"",
"Fields.prog exFields": "b!\"[7 0 R 7 0 R(ab)3]\"",
"Action.prog exAction": "b!\"<</Type/Action/S/Rendition/URI(A)/Flags 8192/A 3>>\"",
"AdditionalActions.prog exAdditionalActions": "b!\"<</E<</Type/Action/S/Rendition>>/Fo<</Type/Action/S/Rendition>>/C<</Type/Action/S/Rendition>>/A 3>>\"",
"IconFit.prog exIconFit": "b!\"<</SW/N/S/P/FB true/A 3>>\"",
"AppearanceCharacteristics.prog exAppearanceCharacteristics": "b!\"<</R 1/BG[1]/I 7 0 R/A 3>>\"",
"Appearance.prog exAppearance": "b!\"<</N 7 0 R/R 7 0 R/D 7 0 R/A 3>>\"",
"BorderStyle.prog exBorderStyle": "b!\"<</Type/Border/W 1/S/U/D[1]/A 3>>\"",
"Annotation.prog exAnnotation": "b!\"<</Type/Annot/Subtype/Screen/BS<</Type/Border/W 1>>/T(a)/A 3>>\"",
"Resources.prog exResources": "b!\"<</XObject<</A 3>>/Pattern<</A 3>>/ProcSet[/ImageI]/A 3>>\"",
"SoftMask.prog exSoftMask": "b!\"<</Type/Mask/S/Luminosity/G 7 0 R/TR 7 0 R/A 3>>\"",
"ExtGraphicsState.prog exExtGraphicsState": "b!\"<</Type/ExtGState/LW 1/BG 7 0 R/SM 1/A 3>>\"",
"Group.prog exGroup": "b!\"<</Type/Group/S/Transparency/CS 3/K true/A 3>>\"",
"Reference.prog exReference": "b!\"<</F<</Type/Filespec/FS/A>>/Page 1/ID[(A)]/A 3>>\"",
"ImageXObject.write exImageXObject": "b!\"5 0 obj\\n<</Length 2/Type/XObject/Subtype/Image/Width 1/ImageMask true/SMask 7 0 R/Filter/Crypt>>\\nstream\\nxy\\nendstream\\nendobj\\n\"",
"FormXObject.write exFormXObject": "b!\"5 0 obj\\n<</Length 2/Type/XObject/Subtype/Form/BBox[1 1 2 2]/Group<</Type/Group/S/Transparency>>/Ref<</F<</Type/Filespec/FS/A>>>>/Filter/Crypt>>\\nstream\\nxy\\nendstream\\nendobj\\n\"",
"IccProfile.write exIccProfile": "b!\"5 0 obj\\n<</Length 2/N 1/Alternate/A/Metadata 7 0 R/Filter/Crypt>>\\nstream\\nxy\\nendstream\\nendobj\\n\"",
"TilingPattern.write exTilingPattern": "b!\"5 0 obj\\n<</Length 2/Type/Pattern/PatternType 1/PaintType 2/BBox[1 1 2 2]/Resources<</XObject<</A 3>>>>/Filter/Crypt>>\\nstream\\nxy\\nendstream\\nendobj\\n\"",
"FunctionShading.prog exFunctionShading": "b!\"<</ShadingType 3/BBox[1 1 2 2]/Function 7 0 R/A 3>>\"",
"ShadingPattern.prog exShadingPattern": "b!\"<</Type/Pattern/PatternType 2/Shading<</ShadingType 3>>/Shading 7 0 R/ExtGState<</Type/ExtGState/LW 1>>/A 3>>\"",
"StreamShading.write exStreamShading": "b!\"5 0 obj\\n<</Length 2/ShadingType 7/AntiAlias true/BitsPerFlag 1/Filter/Crypt>>\\nstream\\nxy\\nendstream\\nendobj\\n\"",
"SeparationInfo.prog exSeparationInfo": "b!\"<</Pages[7 0 R]/DeviceColorant/A/DeviceColorant(ab)/ColorSpace 3>>\"",
"OutputIntent.prog exOutputIntent": "b!\"<</Type/OutputIntent/S/ISO_PDFE1/OutputConditionIdentifier(a)/Info(a)/DestOutputProfile 7 0 R>>\"",
"SampledFunction.write exSampledFunction": "b!\"5 0 obj\\n<</Length 2/FunctionType 0/Domain[1]/Size[1]/Encode[1]/Filter/Crypt>>\\nstream\\nxy\\nendstream\\nendobj\\n\"",
"PostScriptFunction.write exPostScriptFunction": "b!\"5 0 obj\\n<</Length 2/FunctionType 4/Domain[1]/Range[1]/Filter/Crypt>>\\nstream\\nxy\\nendstream\\nendobj\\n\"",
"Differences.prog exDifferences": "b!\"[1/A 3]\"",
"Encoding.prog exEncoding": "b!\"<</Type/Encoding/BaseEncoding/A/Differences[1/A]/A 3>>\"",
"Type1Font.prog exType1Font": "b!\"<</Type/Font/Subtype/Type1/Name/A/LastChar 1/Encoding/A/A 3>>\"",
"Type3Font.prog exType3Font": "b!\"<</Type/Font/Subtype/Type3/Name/A/Encoding/A/Widths[1]/A 3>>\"",
"Type0Font.prog exType0Font": "b!\"<</Type/Font/Subtype/Type0/BaseFont/A/Encoding 7 0 R/ToUnicode 7 0 R/A 3>>\"",
"Widths.prog exWidths": "b!\"[1[1]1 1 1 3]\"",
"CidFont.prog exCidFont": "b!\"<</Type/Font/Subtype/CIDFontType2/FontDescriptor 7 0 R/CIDToGIDMap/A/A 3>>\"",
"FontDescriptorOverride.prog exFontDescriptorOverride": "b!\"<</A 3/A 7 0 R/Ruby 7 0 R/A 3>>\"",
"FontDescriptor.prog exFontDescriptor": "b!\"<</Type/FontDescriptor/FontName/A/Descent 1/MissingWidth 1/A 3>>\"",
"CmapStream.write exCmapStream": "b!\"5 0 obj\\n<</Length 2/Type/CMap/CMapName/A/WMode 1/UseCMap/A/Filter/Crypt>>\\nstream\\nxy\\nendstream\\nendobj\\n\"",
"Form.prog exForm": "b!\"<</Fields[7 0 R]/CO[7 0 R]/DA(A)/A 3>>\"",
"ChoiceOptions.prog exChoiceOptions": "b!\"[(a)(a)[(ab)(a)]3]\"",
"Field.prog exField": "b!\"<</FT/Sig/V/Off/RV(a)/A 3>>\"",
"SignatureFieldLock.prog exSignatureFieldLock": "b!\"<</Type/SigFieldLock/Action/Exclude/Fields[(ab)]/P 3/A 3>>\"",
"SignatureModificationDetectionPrevention.prog exSignatureModificationDetectionPrevention": "b!\"<</P 2/A 3>>\"",
"SignatureTimeStamp.prog exSignatureTimeStamp": "b!\"<</URL(A)/Ff 1/A 3>>\"",
"CertificateSeedValue.prog exCertificateSeedValue": "b!\"<</Type/SVCert/Ff 64/SignaturePolicyHashAlgorithm/A/OID[(A)]/A 3>>\"",
"SignatureSeedValue.prog exSignatureSeedValue": "b!\"<</Type/SV/Ff 256/V 3/TimeStamp<</URL(A)>>/A 3>>\"",
"UserProperty.prog exUserProperty": "b!\"<</N(a)/V 3/H true/A 3>>\"",
"LayoutAttributes.prog exLayoutAttributes": "b!\"<</O/Layout/Placement/End/EndIndent 1/ColumnWidths 1/A 3>>\"",
"ListAttributes.prog exListAttributes": "b!\"<</O/List/ListNumbering/UpperAlpha/ContinuedList true/ContinuedFrom(A)/A 3>>\"",
"FieldAttributes.prog exFieldAttributes": "b!\"<</O/PrintField/Role/lb/Checked/neutral/Desc(a)/A 3>>\"",
"TableAttributes.prog exTableAttributes": "b!\"<</O/Table/RowSpan 1/Headers[(A)]/Summary(a)/A 3>>\"",
"ArtifactAttributes.prog exArtifactAttributes": "b!\"<</O/Artifact/Type/Inline/BBox[1 1 2 2]/Subtype/Redaction/A 3>>\"",
"FENoteAttributes.prog exFENoteAttributes": "b!\"<</O/FENote/NoteType/None/A 3>>\"",
"Attributes.prog exAttributes": "b!\"<</O/CSS-1/O/List/ListNumbering/UpperAlpha/O/Artifact/Type/Inline/A 3>>\"",
"MarkedRef.prog exMarkedRef": "b!\"<</Type/MCR/Pg 7 0 R/StmOwn 7 0 R/Stm 7 0 R/A 3>>\"",
"ObjectRef.prog exObjectRef": "b!\"<</Type/OBJR/Pg 7 0 R/Obj 7 0 R/A 3>>\"",
"StructChildren.prog exStructChildren": "b!\"[7 0 R 1<</Type/OBJR/Pg 7 0 R>>3]\"",
"StructElement.prog exStructElement": "b!\"<</Type/StructElem/S/P/K<</Type/MCR/Pg 7 0 R>>/Alt(a)/A 3>>\"",
"RoleMap.prog exRoleMap": "b!\"<</A/P/A/A>>\"",
"ClassMap.prog exClassMap": "b!\"<</A<</O/CSS-1>>/A[<</O/CSS-1>>]/A 3>>\"",
"NamespaceRoleMap.prog exNamespaceRoleMap": "b!\"<</A/P/A[/A 7 0 R]/A[/Em 7 0 R]/A 3>>\"",
"Namespace.prog exNamespace": "b!\"<</Type/Namespace/NS(ab)/Schema<</Type/Filespec/FS/A>>/RoleMapNS<</A/P>>/A 3>>\"",
"StructTreeRoot.prog exStructTreeRoot": "b!\"<</Type/StructTreeRoot/K 7 0 R/ParentTree<</Kids[7 0 R]>>/Namespaces[7 0 R]/A 3>>\"",
"MarkInfo.prog exMarkInfo": "b!\"<</Marked true/UserProperties true/Suspects true/A 3>>\"",
"PageLabel.prog exPageLabel": "b!\"<</Type/PageLabel/S/A/P(a)/St 1/A 3>>\"",
"DocumentInfo.prog exDocumentInfo": "b!\"<</Title(a)/Subject(a)/Producer(a)/A 3>>\"",
"Pages.prog exPages": "b!\"<</Type/Pages/Parent 7 0 R/Count 1/Resources<</XObject<</A 3>>>>/A 3>>\"",
"Page.prog exPage": "b!\"<</Type/Page/Parent 7 0 R/Contents 7 0 R/Annots[7 0 R]/A 3>>\"",
"Outline.prog exOutline": "b!\"<</Type/Outlines/First 7 0 R/Last 7 0 R/Count 1/A 3>>\"",
"OutlineItem.prog exOutlineItem": "b!\"<</Title(a)/First 7 0 R/Dest/A/A 3>>\"",
"Names.prog exNames": "b!\"<</Dests<</Kids[7 0 R]>>/Pages<</Kids[7 0 R]>>/EmbeddedFiles<</Kids[7 0 R]>>/A 3>>\"",
"DeveloperExtension.prog exDeveloperExtension": "b!\"<</Type/DeveloperExtensions/BaseVersion/1.1/ExtensionLevel 1/A 3>>\"",
"ViewerPreferences.prog exViewerPreferences": "b!\"<</HideToolbar true/FitWindow true/NonFullScreenPageMode/UseAttachments/A 3>>\"",
"Catalog.prog exCatalog": "b!\"<</Type/Catalog/Pages 7 0 R/Dests 7 0 R/AcroForm<</Fields[7 0 R]>>/A 3>>\"",
"Metadata.write exMetadata": "b!\"5 0 obj\\n<</Length 2/Type/Metadata/Subtype/XML/Filter/Crypt>>\\nstream\\nxy\\nendstream\\nendobj\\n\""
}