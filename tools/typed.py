#!/usr/bin/env python3
"""Generates the typed-writer layer of the model from the Rust source, and its specification from the tables below.

  model : one constructor per public method, the entries it inserts, taken from the method body in /repo/src
  spec  : key from the method's documentation ("Write the `/Key` attribute"), value from the argument type and the
          ISO 32000 tables typed in ISO_NAMES / ISO_INTS / MEANS below (not from the method body)

Run:  python3 tools/typed.py      (writes lean/Verif/{Model,Spec,Proof,Props}/Typed/*.lean)
"""
import re,os,sys
sys.path.insert(0,os.path.dirname(os.path.abspath(__file__)))
from rust_parse import methods
ROOT=os.path.dirname(os.path.dirname(os.path.abspath(__file__)))
SRC='/repo/src/'
KW={'open','end','namespace','structure','instance','prefix','variable','section','export','private','in','from','fun','match','do','at','with','if','then','else','by','show','have','let','where','class','def','theorem','example','local','import','macro','syntax','notation','infix','postfix','universe','mutual','extends','deriving','nomatch','Type','Prop','Sort','default','calc','for','return','try','catch','unless','initialize','attribute','abbrev','inductive','opaque','axiom','meta','public','protected','noncomputable','partial','unsafe','scoped','set_option','using','hiding','renaming'}
def camel(s):
    p=s.split('_'); return p[0]+''.join(x[:1].upper()+x[1:] for x in p[1:])
def esc(s): return '«'+s+'»' if s in KW else s
def lower1(s):
    # RGB -> rgb, DeviceN -> deviceN, UseNone -> useNone
    m=re.match(r'^([A-Z0-9]+)$',s)
    if m: return s.lower()
    m=re.match(r'^([A-Z]{2,})([A-Z][a-z].*)$',s)
    if m: return m.group(1).lower()+m.group(2)
    return s[:1].lower()+s[1:]
def b(s): return 'b!"%s"'%s

# ---------------------------------------------------------------- enums
FILES=['object.rs','structure.rs','color.rs','forms.rs','attributes.rs','font.rs','annotations.rs','actions.rs','xobject.rs','renditions.rs','files.rs','transitions.rs','content.rs','functions.rs']
def enums():
    out={}
    for f in FILES:
        L=open(SRC+f).read().split('\n')
        for i,l in enumerate(L):
            m=re.match(r"(?:pub )?enum (\w+)(<'a>)? \{",l)
            if not m: continue
            j=i+1; vs=[]
            while L[j]!='}':
                s=L[j].strip()
                if s and not s.startswith('//') and not s.startswith('#'): vs.append(s.rstrip(','))
                j+=1
            name=m.group(1); a=None; arms={}; fn=None
            k=j+1
            while k<len(L) and not L[k].strip(): k+=1
            if re.match(r"impl(<[^>]*>)? "+name+r"\b",L[k]):
                a=k+1; e=k
                while L[e]!='}': e+=1
                body='\n'.join(L[k:e])
                g=re.search(r'fn (to_\w+|write\w*)\(',body); fn=g.group(1) if g else None
                for g in re.finditer(r'(?:Self|'+name+r')::(\w+)(?:\(\w+\))? => (.*?),\n',body): arms[g.group(1)]=g.group(2)
                b_=e+1
            else: b_=None
            out[name]=dict(file=f,name=name,line=i+1,end=j+1,variants=vs,fn=fn,arms=arms,iline=a,iend=b_)
    return out
ENUMS=enums()
EXIST={'Filter','LineCapStyle','LineJoinStyle','RenderingIntent','ArtifactType','ArtifactSubtype','ArtifactAttachment','WMode','InterpolationOrder','StructRole','StructRole2','FunctionType','DeviceNSubtype','PaintTypeX'}
same=lambda *xs:{x:x for x in xs}
# the values each enumeration stands for, from ISO 32000-1 / -2 (table numbers in comments); keys are the variants
ISO_NAMES={
 'Filter':('Table 6',dict(AsciiHexDecode='ASCIIHexDecode',Ascii85Decode='ASCII85Decode',LzwDecode='LZWDecode',FlateDecode='FlateDecode',RunLengthDecode='RunLengthDecode',CcittFaxDecode='CCITTFaxDecode',Jbig2Decode='JBIG2Decode',DctDecode='DCTDecode',JpxDecode='JPXDecode',Crypt='Crypt')),
 'PageLayout':('Table 28, PageLayout',same('SinglePage','OneColumn','TwoColumnLeft','TwoColumnRight','TwoPageLeft','TwoPageRight')),
 'PageMode':('Table 28, PageMode',same('UseNone','UseOutlines','UseThumbs','FullScreen','UseOC','UseAttachments')),
 'PhoneticAlphabet':('ISO 32000-2, Table 355, PhoneticAlphabet',dict(Ipa='ipa',XSampa='x-sampa',Pinyin='zh-Latn-pinyin',WadeGiles='zh-Latn-wadegile')),
 'Direction':('Table 150, Direction',same('L2R','R2L')),
 'NumberingStyle':('Table 159, S',dict(Arabic='D',LowerRoman='r',UpperRoman='R',LowerAlpha='a',UpperAlpha='A')),
 'TrappingStatus':('Table 317, Trapped',dict(Trapped='True',NotTrapped='False',Unknown='Unknown')),
 'TabOrder':('Table 30, Tabs',dict(RowOrder='R',ColumnOrder='C',StructureOrder='S')),
 'OutputIntentSubtype':('Table 365, S',dict(PDFX='GTS_PDFX',PDFA='GTS_PDFA1',PDFE='ISO_PDFE1')),
 'FieldType':('Table 220, FT',dict(Button='Btn',Text='Tx',Choice='Ch',Signature='Sig')),
 'CheckBoxState':('12.7.4.2.3',dict(Yes='Yes',Off='Off')),
 'SignatureLockAction':('Table 233, Action',same('All','Include','Exclude')),
 'SignatureDigestMethod':('Table 234, DigestMethod',same('SHA1','SHA256','SHA384','SHA512','RIPEMD160')),
 'LockingIntent':('ISO 32000-2, Table 237, LockDocument',dict(Lock='true',DoNotLock='false',Auto='auto')),
 'CertificateUrlType':('Table 235, URLType',dict(Browser='Browser')),
 'Placement':('Table 343, Placement',same('Block','Inline','Before','Start','End')),
 'WritingMode':('Table 343, WritingMode',dict(LtrTtb='LrTb',RtlTtb='RlTb',TtbRtl='TbRl')),
 'LayoutBorderStyle':('Table 343, BorderStyle',same('None','Hidden','Dotted','Dashed','Solid','Double','Groove','Ridge','Inset','Outset')),
 'TextAlign':('Table 344, TextAlign',same('Start','Center','End','Justify')),
 'BlockAlign':('Table 344, BlockAlign',same('Before','Middle','After','Justify')),
 'InlineAlign':('Table 344, InlineAlign',same('Start','Center','End')),
 'LayoutTextPosition':('ISO 32000-2, TextPosition',dict(Normal='Normal',Superscript='Sup',Subscript='Sub')),
 'TextDecorationType':('Table 345, TextDecorationType',same('None','Underline','Overline','LineThrough')),
 'RubyAlign':('Table 345, RubyAlign',same('Start','Center','End','Justify','Distribute')),
 'RubyPosition':('Table 345, RubyPosition',same('Before','After','Warichu','Inline')),
 'ListNumbering':('Table 347, ListNumbering',same('None','Unordered','Ordered','Description','Disc','Circle','Square','Decimal','UpperRoman','LowerRoman','UpperAlpha','LowerAlpha')),
 'FieldRole':('Table 348, Role',dict(Button='pb',CheckBox='cb',RadioButton='rb',TextField='tv',ListBox='lb')),
 'FieldState':('Table 348, checked',dict(Checked='on',Unchecked='off',Neutral='neutral')),
 'TableHeaderScope':('Table 349, Scope',same('Row','Column','Both')),
 'NoteType':('ISO 32000-2, NoteType',same('Footnote','Endnote','None')),
 'CidFontType':('Table 117, Subtype',dict(Type0='CIDFontType0',Type2='CIDFontType2')),
 'CjkClass':('Table 125',same('Alphabetic','AlphaNum','Dingbats','DingbatsRot','Generic','GenericRot','Hangul','Hanja','Hanzi','HRoman','HRomanRot','HKana','HKanaRot','HojoKanji','Kana','Kanji','Proportional','ProportionalRot','Ruby')),
 'FontStretch':('Table 122, FontStretch',same('UltraCondensed','ExtraCondensed','Condensed','SemiCondensed','Normal','SemiExpanded','Expanded','ExtraExpanded','UltraExpanded')),
 'AnnotationType':('Table 169',same('Text','Link','Line','Square','Circle','Highlight','Underline','Squiggly','StrikeOut','FileAttachment','Widget','Screen')),
 'AnnotationIcon':('Tables 172 and 184, Name',same('Comment','Key','Note','Help','NewParagraph','Paragraph','Insert','Graph','PushPin','Paperclip','Tag')),
 'IconScale':('Table 247, SW',dict(Always='A',Bigger='B',Smaller='S',Never='N')),
 'IconScaleType':('Table 247, S',dict(Anamorphic='A',Proportional='P')),
 'HighlightEffect':('Table 173, H',dict(None_='N',Invert='I',Outline='O',Push='P')),
 'BorderType':('Table 166, S',dict(Solid='S',Dashed='D',Beveled='B',Inset='I',Underline='U')),
 'ActionType':('Table 198',dict(GoTo='GoTo',RemoteGoTo='GoToR',Launch='Launch',Uri='URI',SubmitForm='SubmitForm',ResetForm='ResetForm',ImportData='ImportData',JavaScript='JavaScript',Rendition='Rendition')),
 'RenditionType':('Table 266, S',dict(Media='MR',Selector='SR')),
 'MediaClipType':('Table 273, S',dict(Data='MCD',Section='MCS')),
 'AssociationKind':('ISO 32000-2, Table 43, AFRelationship',same('Source','Data','Alternative','Supplement','EncryptedPayload','FormData','Schema','Unspecified')),
 'TransitionStyle':('Table 162, S',same('Split','Blinds','Box','Wipe','Dissolve','Glitter','R','Fly','Push','Cover','Uncover','Fade')),
 'RenderingIntent':('Table 70',same('AbsoluteColorimetric','RelativeColorimetric','Saturation','Perceptual')),
 'ArtifactType':('Table 330, Type',same('Pagination','Layout','Page','Background','Inline')),
 'ArtifactSubtype':('Table 330, Subtype',dict(Header='Header',Footer='Footer',Watermark='Watermark',PageNumber='PageNum',Bates='Bates',LineNumber='LineNum',Redaction='Redaction')),
 'ArtifactAttachment':('Table 330, Attached',same('Left','Top','Right','Bottom')),
 'ProcSet':('Table 314',dict(Pdf='PDF',Text='Text',ImageGrayscale='ImageB',ImageColor='ImageC',ImageIndexed='ImageI')),
 'BlendMode':('Tables 136 and 137',same('Normal','Multiply','Screen','Overlay','Darken','Lighten','ColorDodge','ColorBurn','HardLight','SoftLight','Difference','Exclusion','Hue','Saturation','Color','Luminosity')),
 'MaskType':('Table 144, S',same('Alpha','Luminosity')),
 'TempFileType':('Table 274, TF',dict(Never='TEMPNEVER',Extract='TEMPEXTRACT',Access='TEMPACCESS',Always='TEMPALWAYS')),
 'AttributeOwner':('Table 341',{}),
}
ISO_INTS={
 'Predictor':('Table 10',dict(None_=1,Tiff=2,PngNone=10,PngSub=11,PngUp=12,PngAverage=13,PngPaeth=14,PngOptimum=15)),
 'PatternType':('Tables 75 and 76',dict(Tiling=1,Shading=2)),
 'PaintType':('Table 75, PaintType',dict(Colored=1,Uncolored=2)),
 'TilingType':('Table 75, TilingType',dict(ConstantSpacing=1,NoDistortion=2,FastConstantSpacing=3)),
 'FunctionShadingType':('Table 78',dict(Function=1,Axial=2,Radial=3)),
 'StreamShadingType':('Table 78',dict(FreeformGouraud=4,LatticeGouraud=5,CoonsPatch=6,TensorProductPatch=7)),
 'Quadding':('Table 222, Q',dict(Left=0,Center=1,Right=2)),
 'SeedValueParserVersion':('Table 234, V',dict(Pdf15=1,Pdf17=2,Pdf20=3)),
 'AccessPermissions':('ISO 32000-2, Table 236, P',dict(NoChanges=1,FillAndSign=2,Annotations=3)),
 'TextPosition':('Table 189, TP',dict(CaptionOnly=0,IconOnly=1,Below=2,Above=3,Right=4,Left=5,Overlaid=6)),
 'RenditionOperation':('Table 214, OP',dict(Play=0,Stop=1,Pause=2,Resume=3,PlayOrResume=4)),
 'SMaskInData':('Table 89, SMaskInData',dict(Ignore=0,Use=1,Preblended=2)),
 'OverprintMode':('Table 58, OPM',dict(OverrideAllColorants=0,IgnoreZeroChannel=1)),
 'LineCapStyle':('Table 54',dict(ButtCap=0,RoundCap=1,ProjectingSquareCap=2)),
 'LineJoinStyle':('Table 55',dict(MiterJoin=0,RoundJoin=1,BevelJoin=2)),
 'WMode':('Table 120, WMode',dict(Horizontal=0,Vertical=1)),
 'InterpolationOrder':('Table 39, Order',dict(Linear=1,Cubic=3)),
}
STRENUM={'TempFileType'}
# flags: constant -> bit position of the standard (1-based)
ISO_FLAGS={
 'FormActionFlags':('Tables 237 and 239',dict(INCLUDE_EXCLUDE=1,INCLUDE_NO_VALUE_FIELDS=2,EXPORT_FORMAT=3,GET_METHOD=4,SUBMIT_COORDINATES=5,XFDF=6,INCLUDE_APPEND_SAVES=7,INCLUDE_ANNOTATIONS=8,SUBMIT_PDF=9,CANONICAL_FORMAT=10,EXCLUDE_NON_USER_ANNOTS=11,EXCLUDE_F_KEY=12,EMBED_FORM=14)),
 'AnnotationFlags':('Table 165',dict(INVISIBLE=1,HIDDEN=2,PRINT=3,NO_ZOOM=4,NO_ROTATE=5,NO_VIEW=6,READ_ONLY=7,LOCKED=8,TOGGLE_NO_VIEW=9,LOCKED_CONTENTS=10)),
 'FontFlags':('Table 123',dict(FIXED_PITCH=1,SERIF=2,SYMBOLIC=3,SCRIPT=4,NON_SYMBOLIC=6,ITALIC=7,ALL_CAP=17,SMALL_CAP=18,FORCE_BOLD=19)),
 'SigFlags':('Table 219',dict(SIGNATURES_EXIST=1,APPEND_ONLY=2)),
 'SignatureSeedValueFlags':('Table 234, Ff; ISO 32000-2, Table 237',dict(FILTER=1,SUB_FILTER=2,VERSION=3,REASONS=4,LEGAL_ATTESTATION=5,ADD_REV_INFO=6,DIGEST_METHOD=7,LOCK_DOCUMENT=8,APPEARANCE_FILTER=9)),
 'CertificateSeedValueFlags':('Table 235, Ff',dict(SUBJECT=1,ISSUER=2,OID=3,SUBJECT_DN=4,KEY_USAGE=6,URL=7)),
 'FieldFlags':('Tables 221, 226, 228 and 230',dict(READ_ONLY=1,REQUIRED=2,NO_EXPORT=3,MULTILINE=13,PASSWORD=14,NO_TOGGLE_TO_OFF=15,RADIO=16,PUSHBUTTON=17,COMBO=18,EDIT=19,SORT=20,FILE_SELECT=21,MULTI_SELECT=22,DO_NOT_SPELL_CHECK=23,DO_NOT_SCROLL=24,COMB=25,RICH_TEXT=26,RADIOS_IN_UNISON=26,COMMIT_ON_SEL_CHANGE=27)),
 'OutlineItemFlags':('Table 154',dict(ITALIC=1,BOLD=2)),
}
def flagdefs():
    out={}
    for f in FILES:
        L=open(SRC+f).read().split('\n')
        for i,l in enumerate(L):
            m=re.match(r'    pub struct (\w+): u32 \{',l)
            if not m: continue
            j=i; cs=[]
            while L[j]!='    }':
                g=re.match(r'        const (\w+) = (.*);',L[j])
                if g: cs.append((g.group(1),g.group(2),j+1))
                j+=1
            out[m.group(1)]=dict(file=f,line=i+1,end=j+1,consts=cs)
    return out
FLAGS=flagdefs()

def var(v):
    """(constructor, payload type, discriminant)"""
    g=re.match(r"(\w+)\((.*)\)$",v)
    if g: return g.group(1),g.group(2),None
    g=re.match(r'(\w+) = (\d+)$',v)
    if g: return g.group(1),None,int(g.group(2))
    return v,None,None

def gen_enums():
    M=[];S=[]
    for n in list(ISO_NAMES)+list(ISO_INTS):
        if n=='AttributeOwner': continue
        tab,iso=(ISO_NAMES.get(n) or ISO_INTS.get(n)); isn=n in ISO_NAMES
        iso={('None' if k=='None_' else k):v for k,v in iso.items()}
        e=ENUMS[n]; vs=[var(v) for v in e['variants']]
        # constructor names: existing enums use lower1 of the variant
        if n not in EXIST:
            M.append('/-- `%s` (%s:%d-%d). -/'%(n,e['file'],e['line'],e['end']))
            M.append('inductive %s where'%n)
            for v,p,d in vs: M.append('  | %s%s'%(esc(lower1(v)),' (n : Bytes)' if p else ''))
            M.append('deriving DecidableEq'); M.append('')
            conv='toName' if isn and n not in STRENUM else ('toStr' if isn else 'toInt')
            if e['fn']: M.append('/-- `%s::%s` (%s:%d-%d). -/'%(n,e['fn'],e['file'],e['iline'],e['iend']))
            else: M.append('/-- The discriminants (`as i32`, %s:%d-%d). -/'%(e['file'],e['line'],e['end']))
            M.append('def %s.%s : %s → %s'%(n,conv,n,'Bytes' if isn else 'Int'))
            for v,p,d in vs:
                if p: M.append('  | .%s n => n'%esc(lower1(v))); assert e['arms'][v]=='name',(n,v,e['arms'])
                elif d is not None: M.append('  | .%s => %d'%(esc(lower1(v)),d))
                else:
                    a=e['arms'][v]; g=re.match(r'(?:Name|Str)\(b"(.*)"\)$',a)
                    M.append('  | .%s => %s'%(esc(lower1(v)),b(g.group(1)) if g else a))
            M.append('')
        S.append('/-- %s. -/'%tab)
        S.append('def iso%s : %s → %s'%(n,n,'Bytes' if isn else 'Int'))
        seen=set()
        for v,p,d in vs:
            if p: S.append('  | .%s n => n'%esc(lower1(v))); continue
            seen.add(v)
            x=iso[v]; S.append('  | .%s => %s'%(esc(lower1(v)),b(x) if isn else x))
        assert seen==set(iso),(n,seen^set(iso))
        S.append('')
    for n,(tab,iso) in ISO_FLAGS.items():
        d=FLAGS[n]; one=n[:-1]
        M.append('/-- The constants of `%s` (%s:%d-%d). -/'%(n,d['file'],d['line'],d['end']))
        M.append('inductive %s where'%one)
        for c,_,_ in d['consts']: M.append('  | %s'%esc(camel(c.lower())))
        M.append('deriving DecidableEq'); M.append('')
        M.append('/-- Their bits (%s:%d-%d). -/'%(d['file'],d['line'],d['end']))
        M.append('def %s.bits : %s → Nat'%(one,one))
        for c,x,ln in d['consts']: M.append('  | .%s => %s'%(esc(camel(c.lower())),x.replace('<<','<<<')))
        M.append('')
        S.append('/-- %s: bit positions, the lowest bit is 1. -/'%tab)
        S.append('def iso%s : %s → Nat'%(one,one))
        assert {c for c,_,_ in d['consts']}==set(iso),n
        for c,_,_ in d['consts']: S.append('  | .%s => %d'%(esc(camel(c.lower())),iso[c]))
        S.append('')
    return M,S

# ---------------------------------------------------------------- types
# rust type -> (lean type, model expr, spec expr)
BASE={
 'i32':('Int','pInt %s','IsInt %s'),
 'f32':('F32','pReal %s','NumIs %s'),
 'bool':('Bool','pBool %s','IsBool %s'),
 'u8':('UInt8','pInt %s.toNat','IsInt %s.toNat'),
 'u16':('UInt16','pInt %s.toNat','IsInt %s.toNat'),
 'Name':('Bytes','pName %s','IsName %s'),
 'Str':('Bytes','pStr %s','IsStr %s'),
 'TextStr':('List Char','pText %s','IsText %s'),
 '&str':('List Char','pText %s','IsText %s'),
 'impl TextStrLike':('TextLike','%s.prog','IsTextLike %s'),
 'Ref':('Ref','pRef %s','IsRef %s'),
 'Date':('Date','pDate %s','IsDate %s'),
 'Rect':('Rect','pRect %s','IsRect %s'),
}
def norm(t):
    t=t.strip(); t=re.sub(r"<'\w+>|<'_>",'',t); t=re.sub(r"'\w+ ",'',t); return t
def conv_of(n): return 'toInt' if n in ISO_INTS else ('toStr' if n in STRENUM else 'toName')
def scalar(t):
    t=norm(t)
    if t in BASE: return BASE[t]
    if t in ISO_FLAGS: return ('List '+t[:-1],'pFlags (%s.map '+t[:-1]+'.bits)','FlagsAre (%s.map iso'+t[:-1]+')')
    if t in STRENUM: return (t,'pStr %s.toStr','IsStr (iso'+t+' %s)')
    if t in ISO_INTS: return (t,'pInt %s.toInt','IsInt (iso'+t+' %s)')
    if t in ISO_NAMES: return (t,'pName %s.toName','IsName (iso'+t+' %s)')
    if t=='StructRole': return ('StructRole','pName %s.toName','IsRole17 %s')
    return None
def argtype(t):
    """(lean type, model, spec) for a parameter type"""
    t=t.strip()
    s=scalar(t)
    if s: return s
    g=re.match(r"impl IntoIterator<Item = (.*)>$",t) or re.match(r"\[(.*); \d+\]$",t)
    if g:
        s=scalar(g.group(1))
        if s is None: return None
        lt=s[0]; lt='List (%s)'%lt if ' ' in lt else 'List '+lt
        return (lt,'.array (%s.map fun x => '+s[1].replace('%s','x')+')','ArrayIs (%s.map fun x => '+s[2].replace('%s','x')+')')
    return None
def fixed_len(t):
    g=re.match(r"\[(.*); (\d+)\]$",t.strip()); return int(g.group(2)) if g else None

# ---------------------------------------------------------------- writers
# module -> writers, in dependency order
MODS=[
 ('Object',['DecodeParms','Stream','NameTree','NumberTree']),
 ('Destination',['Destination']),
 ('Files',['FileSpec','EmbeddingParams','EmbeddedFile']),
 ('Transitions',['Transition']),
 ('Renditions',['MediaPermissions','MediaPlayParams','MediaClip','Rendition']),
 ('Actions',['Fields','Action','AdditionalActions']),
 ('Annotations',['IconFit','AppearanceCharacteristics','AppearanceEntry','Appearance','BorderStyle','Annotation']),
 ('Resources',['Resources','SoftMask','ExtGraphicsState']),
 ('XObject',['Group','Reference','ImageXObject','FormXObject']),
 ('Pattern',['IccProfile','TilingPattern','FunctionShading','ShadingPattern','StreamShading','SeparationInfo','OutputIntent']),
 ('Functions',['SampledFunction','PostScriptFunction']),
 ('Fonts',['Differences','Encoding','Type1Font','Type3Font','Type0Font','Widths','CidFont','FontDescriptorOverride','FontDescriptor','CmapStream']),
 ('Forms',['Form','ChoiceOptions','Field','SignatureFieldLock','SignatureModificationDetectionPrevention','SignatureTimeStamp','CertificateSeedValue','SignatureSeedValue']),
 ('Attributes',['UserProperty','TrackSizes','LayoutAttributes','ListAttributes','FieldAttributes','TableAttributes','ArtifactAttributes','FENoteAttributes','Attributes']),
 ('Structure',['MarkedRef','ObjectRef','StructChildren','StructElement','RoleMap','ClassMap','NamespaceRoleMap','Namespace','StructTreeRoot','MarkInfo','PageLabel','DocumentInfo','Pages','Page','Outline','OutlineItem','Names','DeveloperExtension','ViewerPreferences','Catalog','Metadata']),
]
IMPORTS={'Object':['Base'],'Destination':['Base'],'Files':['Object'],'Transitions':['Base'],'Renditions':['Files'],'Actions':['Renditions','Destination'],
 'Annotations':['Actions'],'Resources':['Base'],'XObject':['Files','Resources'],'Pattern':['Object','Resources'],'Functions':['Object'],'Fonts':['Object','Resources'],
 'Forms':['Annotations','Resources'],'Attributes':['Base'],'Structure':['Attributes','Forms','XObject','Pattern','Transitions']}
PROP={'Object':'C44','Destination':'C45','Files':'C45','Transitions':'C45','Renditions':'C45','Actions':'C45','Annotations':'C45','Resources':'C44','XObject':'C44','Pattern':'C44','Functions':'C44','Fonts':'C43','Forms':'C45','Attributes':'C46','Structure':'C42'}
STREAMS={'Stream','EmbeddedFile','ImageXObject','FormXObject','IccProfile','TilingPattern','StreamShading','SampledFunction','PostScriptFunction','CmapStream','Metadata'}
ARRAYS={'Destination','Fields','StructChildren','ChoiceOptions','Differences','Widths'}
CHOICE={'AppearanceEntry','TrackSizes'}      # writers that consume their object: one call
# what start() puts first, per the standard: Type (and subtype) entries
N=lambda s:'IsName '+b(s)
ISO_INIT={
 'Action':[('Type',N('Action'))],'Annotation':[('Type',N('Annot'))],'BorderStyle':[('Type',N('Border'))],
 'ShadingPattern':[('Type',N('Pattern')),('PatternType','IsInt 2')],'TilingPattern':[('Type',N('Pattern')),('PatternType','IsInt 1')],
 'OutputIntent':[('Type',N('OutputIntent'))],'ExtGraphicsState':[('Type',N('ExtGState'))],'SoftMask':[('Type',N('Mask'))],
 'FileSpec':[('Type',N('Filespec'))],'EmbeddedFile':[('Type',N('EmbeddedFile'))],
 'Type1Font':[('Type',N('Font')),('Subtype',N('Type1'))],'Type3Font':[('Type',N('Font')),('Subtype',N('Type3'))],'Type0Font':[('Type',N('Font')),('Subtype',N('Type0'))],
 'CidFont':[('Type',N('Font'))],'Encoding':[('Type',N('Encoding'))],'FontDescriptor':[('Type',N('FontDescriptor'))],'CmapStream':[('Type',N('CMap'))],
 'SignatureFieldLock':[('Type',N('SigFieldLock'))],'SignatureSeedValue':[('Type',N('SV'))],'CertificateSeedValue':[('Type',N('SVCert'))],
 'SampledFunction':[('FunctionType','IsInt 0')],'PostScriptFunction':[('FunctionType','IsInt 4')],
 'Rendition':[('Type',N('Rendition'))],'MediaClip':[('Type',N('MediaClip'))],'MediaPlayParams':[('Type',N('MediaPlayParams'))],'MediaPermissions':[('Type',N('MediaPermissions'))],
 'Catalog':[('Type',N('Catalog'))],'DeveloperExtension':[('Type',N('DeveloperExtensions'))],'StructTreeRoot':[('Type',N('StructTreeRoot'))],'StructElement':[('Type',N('StructElem'))],
 'MarkedRef':[('Type',N('MCR'))],'ObjectRef':[('Type',N('OBJR'))],'Namespace':[('Type',N('Namespace'))],'PageLabel':[('Type',N('PageLabel'))],
 'Pages':[('Type',N('Pages'))],'Page':[('Type',N('Page'))],'Outline':[('Type',N('Outlines'))],'Transition':[('Type',N('Trans'))],'Group':[('Type',N('Group'))],
 'ImageXObject':[('Type',N('XObject')),('Subtype',N('Image'))],'FormXObject':[('Type',N('XObject')),('Subtype',N('Form'))],'Metadata':[('Type',N('Metadata')),('Subtype',N('XML'))],
 'LayoutAttributes':[('O',N('Layout'))],'ListAttributes':[('O',N('List'))],'FieldAttributes':[('O',N('PrintField'))],'TableAttributes':[('O',N('Table'))],
 'ArtifactAttributes':[('O',N('Artifact'))],'FENoteAttributes':[('O',N('FENote'))],
}
def starts():
    """writer -> (file, first line, last line, [(key, rust expr)])"""
    out={}
    for f in FILES:
        s=open(SRC+f).read(); L=s.split('\n')
        for i,l in enumerate(L):
            m=re.match(r"writer!\((\w+): \|\w+\| (.*)$",l)
            if m:
                w=m.group(1)
                if l.endswith(');') and '{' in l and l.count('{')==l.count('}') or l.endswith('));'): j=i
                else:
                    j=i
                    while not re.match(r'\}\);$',L[j]): j+=1
                t='\n'.join(L[i:j+1]); a,e=i+1,j+1
                if 'start_with_dict' in t:
                    k=i
                    while 'fn start_with_dict' not in L[k]: k+=1
                    j=k
                    while L[j]!='    }': j+=1
                    t='\n'.join(L[k:j+1]); a,e=i+1,j+1
                out[w]=(f,a,e,re.findall(r'\.pair\(Name\(b"([^"]*)"\), (.*?)\);',t))
            m=re.match(r"impl<'a> (\w+)<'a> \{",l)
            if m:
                k=i
                while L[k]!='}':
                    if re.match(r'    pub\(crate\) fn start(_with_stream)?\((mut )?stream: Stream',L[k]):
                        j=k
                        while L[j]!='    }': j+=1
                        out[m.group(1)]=(f,k+1,j+1,re.findall(r'\.pair\(Name\(b"([^"]*)"\), (.*?)\);','\n'.join(L[k:j+1])))
                    k+=1
    for w,f in (('NameTree','object.rs'),('NumberTree','object.rs')):
        L=open(SRC+f).read().split('\n')
        k=[i for i,l in enumerate(L) if l.startswith("impl<'a, T> Writer<'a> for %s<"%w)][0]
        out[w]=(f,k+1,k+5,[])
    return out
STARTS=starts(); STARTS['CmapStream']=STARTS.pop('Cmap')   # `Cmap` (the name is taken by the builder of its data)
def derefs():
    out={}
    for f in FILES:
        s=open(SRC+f).read()
        for m in re.finditer(r"^deref!\((.*?)\);",s,re.M|re.S):
            g=re.match(r"'a, (\w+)<'a> => (\w+)<",re.sub(r'\s+',' ',m.group(1)).replace('< ','<'))
            out[g.group(1)]=(g.group(2),f,s[:m.start()].count('\n')+1)
    return out
DEREF=derefs(); DEREF['CmapStream']=DEREF.pop('Cmap')

# ---- methods that are not of one of the recognised shapes: (args, entries, means); None means "same as recognised"
def lit(*kv): return '['+', '.join('(%s, %s)'%(k,v) for k,v in kv)+']'
K=b
OV={}   # (writer, method) -> dict(args, entries, means)
def ov(w,m,args,entries,means): OV[w,m]=dict(args=args,entries=entries,means=means)
# spec only overrides: the recognised model is kept
MEANS={}
def means(w,m,s): MEANS[w,m]=s
means('DecodeParms','early_change',lambda a:lit((K('EarlyChange'),'IsInt (if %s then 1 else 0)'%a[0])))
means('DecodeParms','color_transform',lambda a:lit((K('ColorTransform'),'IsInt (if %s then 1 else 0)'%a[0])))
means('DecodeParms','crypt_type',lambda a:lit((K('Type'),N('CryptFilterDecodeParms'))))
means('Group','transparency',lambda a:lit((K('S'),N('Transparency'))))
means('ExtGraphicsState','black_generation_default',lambda a:lit((K('BG2'),N('Default'))))
means('ExtGraphicsState','undercolor_removal_default',lambda a:lit((K('UCR2'),N('Default'))))
means('ExtGraphicsState','transfer_default',lambda a:lit((K('TR2'),N('Default'))))
means('ExtGraphicsState','halftone_default',lambda a:lit((K('HT'),N('Default'))))
means('SignatureTimeStamp','required',lambda a:lit((K('Ff'),'IsInt (if %s then 1 else 0)'%a[0])))
means('Catalog','version',lambda a:lit((K('Version'),'IsVersion %s %s'%(a[0],a[1]))))
means('DeveloperExtension','base_version',lambda a:lit((K('BaseVersion'),'IsVersion %s %s'%(a[0],a[1]))))
means('NameTree','limits',lambda a:lit((K('Limits'),'ArrayIs [IsStr %s, IsStr %s]'%(a[0],a[1]))))
means('AppearanceCharacteristics','border_color_cymk',lambda a:lit((K('BC'),'ArrayIs [NumIs c, NumIs m, NumIs y, NumIs k]')))
means('AppearanceCharacteristics','background_color_cymk',lambda a:lit((K('BG'),'ArrayIs [NumIs c, NumIs m, NumIs y, NumIs k]')))
means('Transition','opaque',lambda a:lit((K('B'),'fun v => ∃ x, v = .bool x')))
# keys where the documentation names none or misspells it (see DESIGN.md)
DOCKEY={('Names','templates'):'Templates',('SignatureSeedValue','sub_filter'):'SubFilter',('FileSpec','association_kind'):'AFRelationship'}
# methods whose behaviour is not what is documented / the standard says: excluded from the positive theorems
DEFECTS={('NameTree','limits'),('AppearanceCharacteristics','border_color_cymk'),('AppearanceCharacteristics','background_color_cymk'),
 ('Transition','opaque'),('SignatureSeedValue','appearance_filter'),('CertificateSeedValue','signature_policy_commitment_type'),
 ('AdditionalActions','annot_page_close'),('Namespace','pdf_2_ns'),('Namespace','pdf_1_7_ns'),('Namespace','mathml_3_0_ns'),('ExtGraphicsState','font')}
# what these calls write instead (see Props/Typed/Defects.lean)
ACTUAL={('ExtGraphicsState','font'):'[(b!"Font", ArrayIs [IsName font\', NumIs size])]',
 ('NameTree','limits'):'[(b!"Limits", ArrayIs [IsName min, IsName max])]',
 ('AppearanceCharacteristics','border_color_cymk'):'[(b!"BC", ArrayIs [NumIs c, NumIs y, NumIs m, NumIs k])]',
 ('AppearanceCharacteristics','background_color_cymk'):'[(b!"BG", ArrayIs [NumIs c, NumIs y, NumIs m, NumIs k])]',
 ('Transition','opaque'):'[(b!"F", NumIs «opaque\'»)]',
 ('SignatureSeedValue','appearance_filter'):'[(b!"LockDocument", IsText signatureAppearance)]',
 ('CertificateSeedValue','signature_policy_commitment_type'):'[(b!"SignaturePolicyHashAlgorithm", ArrayIs (commitmentTypes.map fun x => IsStr x))]',
 ('AdditionalActions','annot_page_close'):'[(b!"PV", IsAction calls)]',
 ('Namespace','pdf_2_ns'):'[(b!"NS", IsText "https://www.iso.org/pdf2/ssn".toList)]',
 ('Namespace','pdf_1_7_ns'):'[(b!"NS", IsText "https://www.iso.org/pdf/ssn".toList)]',
 ('Namespace','mathml_3_0_ns'):'[(b!"NS", IsText "https://www.w3.org/1998/Math/MathML".toList)]'}
ov('NameTree','names',[('entries','List (Bytes × Prim)')],lit((K('Names'),'.array (entries.flatMap fun e => [pStr e.1, .prim e.2])')),
   lit((K('Names'),'ArrayIs (entries.flatMap fun e => [IsStr e.1, PrimDenotes e.2])')))
ov('NumberTree','nums',[('entries','List (Int × Prim)')],lit((K('Nums'),'.array (entries.flatMap fun e => [pInt e.1, .prim e.2])')),
   lit((K('Nums'),'ArrayIs (entries.flatMap fun e => [IsInt e.1, PrimDenotes e.2])')))
ov('DecodeParms','colors',[('colors','Int')],lit((K('Colors'),'pInt colors')),lit((K('Colors'),'IsInt colors')))
ov('DecodeParms','bits_per_component',[('bits','Int')],lit((K('BitsPerComponent'),'pInt bits')),lit((K('BitsPerComponent'),'IsInt bits')))
ov('IccProfile','n',[('n','Int')],lit((K('N'),'pInt n')),lit((K('N'),'IsInt n')))
ov('TilingPattern','x_step',[('x','F32')],lit((K('XStep'),'pReal x')),lit((K('XStep'),'NumIs x')))
ov('TilingPattern','y_step',[('y','F32')],lit((K('YStep'),'pReal y')),lit((K('YStep'),'NumIs y')))
ov('Outline','count',[('count','Int')],lit((K('Count'),'pInt count')),lit((K('Count'),'IsInt count')))
ov('ViewerPreferences','non_full_screen_page_mode',[('mode','PageMode')],lit((K('NonFullScreenPageMode'),'pName mode.toName')),lit((K('NonFullScreenPageMode'),'IsName (isoPageMode mode)')))
PANICS={('DecodeParms','colors'):'decide (colors ≤ 0)',('DecodeParms','bits_per_component'):'!([1, 2, 4, 8, 16].contains bits)',
 ('IccProfile','n'):'!(n == 1 || n == 3 || n == 4)',('TilingPattern','x_step'):'x.eq F32.zero',('TilingPattern','y_step'):'y.eq F32.zero',
 ('Outline','count'):'!decide (0 ≤ count)',('ViewerPreferences','non_full_screen_page_mode'):'mode == .fullScreen'}
# Destination
ov('Destination','xyz',[('left','F32'),('top','F32'),('zoom','Option F32')],'[pName b!"XYZ", pReal left, pReal top, pReal (zoom.getD F32.zero)]',
   '[IsName b!"XYZ", NumIs left, NumIs top, IsZoom zoom]')
for m,n,a in (('fit_horizontal','FitH','top'),('fit_vertical','FitV','left'),('fit_bounding_box_horizontal','FitBH','top'),('fit_bounding_box_vertical','FitBV','left')):
    ov('Destination',m,[(a,'F32')],'[pName %s, pReal %s]'%(K(n),a),'[IsName %s, NumIs %s]'%(K(n),a))
ov('Destination','fit_rect',[('rect','Rect')],'[pName b!"FitR", pReal rect.x1, pReal rect.y1, pReal rect.x2, pReal rect.y2]','[IsName b!"FitR", NumIs rect.x1, NumIs rect.y1, NumIs rect.x2, NumIs rect.y2]')
means('Destination','fit',lambda a:'[IsName b!"Fit"]'); means('Destination','fit_bounding_box',lambda a:'[IsName b!"FitB"]')
# files
ov('FileSpec','embedded_file',[('r','Ref')],lit((K('EF'),'.dict [(b!"F", pRef r)]')),lit((K('EF'),'DictIs [(b!"F", IsRef r)]')))
ov('FileSpec','embedded_file_with_unicode',[('r','Ref')],lit((K('EF'),'.dict [(b!"F", pRef r), (b!"UF", pRef r)]')),lit((K('EF'),'DictIs [(b!"F", IsRef r), (b!"UF", IsRef r)]')))
ov('Transition','dimension',[('vertical','Bool')],lit((K('Dm'),'pName (if vertical then b!"V" else b!"H")')),lit((K('Dm'),'IsName (if vertical then b!"V" else b!"H")')))
ov('Transition','direction',[('outward','Bool')],lit((K('M'),'pName (if outward then b!"O" else b!"I")')),lit((K('M'),'IsName (if outward then b!"O" else b!"I")')))
ov('Transition','angle',[('angle','TransitionAngle')],lit((K('Di'),'angle.prog')),lit((K('Di'),'IsAngle angle')))
ov('MediaPlayParams','controls',[('c','Bool')],lit((K('BE'),'.dict [(b!"C", pBool c)]')),lit((K('BE'),'DictIs [(b!"C", IsBool c)]')))
ov('Fields','ids',[('ids','List Ref')],'ids.map pRef','ids.map IsRef')
ov('Fields','names',[('names','List (List Char)')],'names.map pText','names.map IsText')
ov('Annotation','border',[('hRadius','F32'),('vRadius','F32'),('width','F32'),('dashPattern','Option (List F32)')],
   lit((K('Border'),'.array ([pReal hRadius, pReal vRadius, pReal width] ++ (dashPattern.map fun p => .array (p.map fun x => pReal x)).toList)')),
   lit((K('Border'),'ArrayIs ([NumIs hRadius, NumIs vRadius, NumIs width] ++ (dashPattern.map fun p => ArrayIs (p.map fun x => NumIs x)).toList)')))
ov('Annotation','color_transparent',[],lit((K('C'),'.array []')),lit((K('C'),'ArrayIs []')))
ov('AppearanceCharacteristics','border_color_transparent',[],lit((K('BC'),'.array []')),lit((K('BC'),'ArrayIs []')))
ov('AppearanceCharacteristics','background_color_transparent',[],lit((K('BG'),'.array []')),lit((K('BG'),'ArrayIs []')))
ov('AppearanceEntry','stream',[('r','Ref')],'pRef r','IsRef r')
ov('AppearanceEntry','streams',[('es','List (Bytes × Ref)')],'.dict (es.map fun e => (e.1, pRef e.2))','DictIs (es.map fun e => (e.1, IsRef e.2))')
ov('TrackSizes','uniform',[('x','F32')],'pReal x','NumIs x')
ov('TrackSizes','individual',[('xs','List F32')],'.array (xs.map fun x => pReal x)','ArrayIs (xs.map fun x => NumIs x)')
# content
ov('Resources','proc_sets',[('sets','List ProcSet')],lit((K('ProcSet'),'.array (sets.map fun x => pName x.toName)')),lit((K('ProcSet'),'ArrayIs (sets.map fun x => IsName (isoProcSet x))')))
ov('Resources','proc_sets_all',[],lit((K('ProcSet'),'.array ([ProcSet.pdf, .text, .imageGrayscale, .imageColor, .imageIndexed].map fun x => pName x.toName)')),
   lit((K('ProcSet'),'ArrayIs [IsName b!"PDF", IsName b!"Text", IsName b!"ImageB", IsName b!"ImageC", IsName b!"ImageI"]')))
ov('Resources','properties',[('es','List (Bytes × List PropCall)')],lit((K('Properties'),'.dict (es.map fun e => (e.1, .dict (e.2.map PropCall.entry)))')),
   lit((K('Properties'),'DictIs (es.map fun e => (e.1, Denotes (.dict (e.2.map propEntry))))')))
ov('ExtGraphicsState','dash_pattern',[('pattern','List F32'),('phase','F32')],lit((K('D'),'.array [.array (pattern.map fun x => pReal x), pReal phase]')),lit((K('D'),'ArrayIs [ArrayIs (pattern.map fun x => NumIs x), NumIs phase]')))
ov('ExtGraphicsState','font',[('font','Bytes'),('size','F32')],lit((K('Font'),'.array [pName font, pReal size]')),lit((K('Font'),'ArrayIs [fun v => ∃ n g, v = .ref n g, NumIs size]')))
# functions
for w in ('SampledFunction','PostScriptFunction'):
    for k in ('domain','range'):
        n=k.capitalize(); ov(w,k,[('xs','List F32')],lit((K(n),'.array (xs.map fun x => pReal x)')),lit((K(n),'ArrayIs (xs.map fun x => NumIs x)')))
# fonts
ov('Differences','consecutive',[('start','UInt8'),('names','List Bytes')],'pInt start.toNat :: names.map pName','IsInt start.toNat :: names.map IsName')
ov('Widths','consecutive',[('start','UInt16'),('widths','List F32')],'[pInt start.toNat, .array (widths.map fun x => pReal x)]','[IsInt start.toNat, ArrayIs (widths.map fun x => NumIs x)]')
ov('Widths','same',[('first','UInt16'),('last','UInt16'),('width','F32')],'[pInt first.toNat, pInt last.toNat, pReal width]','[IsInt first.toNat, IsInt last.toNat, NumIs width]')
for w in ('CidFont','CmapStream'):
    ov(w,'system_info',[('info','SystemInfo')],lit((K('CIDSystemInfo'),'info.prog')),lit((K('CIDSystemInfo'),'IsSystemInfo info')))
ov('FontDescriptor','style',[('familyClass','UInt8'),('subclass','UInt8'),('panose','Fin 10 → UInt8')],lit((K('Style'),'.dict [(b!"Panose", pStr (familyClass :: subclass :: List.ofFn panose))]')),
   lit((K('Style'),'DictIs [(b!"Panose", IsPanose familyClass subclass panose)]')))
ov('FontDescriptorOverride','custom_class',[('cls','Bytes'),('d','Prog')],lit(('cls','d')),lit(('cls','Denotes d')))
ov('FontDescriptorOverride','custom_class_ref',[('cls','Bytes'),('r','Ref')],lit(('cls','pRef r')),lit(('cls','IsRef r')))
ov('FontDescriptorOverride','cjk_class',[('cls','CjkClass'),('d','Prog')],lit(('cls.toName','d')),lit(('isoCjkClass cls','Denotes d')))
ov('FontDescriptorOverride','cjk_class_ref',[('cls','CjkClass'),('r','Ref')],lit(('cls.toName','pRef r')),lit(('isoCjkClass cls','IsRef r')))
# forms
ov('ChoiceOptions','options',[('values','List TextLike')],'values.map TextLike.prog','values.map IsTextLike')
ov('ChoiceOptions','export',[('value','TextLike'),('exportValue','List Char')],'[.array [pText exportValue, value.prog]]','[ArrayIs [IsText exportValue, IsTextLike value]]')
ov('ChoiceOptions','exports',[('values','List (TextLike × List Char)')],'values.map fun e => .array [pText e.2, e.1.prog]','values.map fun e => ArrayIs [IsText e.2, IsTextLike e.1]')
ov('Field','into_annotation',[('calls','List AnnotationCall')],lit((K('Type'),'pName b!"Annot"'),(K('Subtype'),'pName AnnotationType.widget.toName'))+' ++ calls.flatMap AnnotationCall.entries',
   lit((K('Type'),N('Annot')),(K('Subtype'),N('Widget')))+' ++ calls.flatMap AnnotationMeans')
ov('Field','choice_value',[('option','Option (List Char)')],lit((K('V'),'optText option')),lit((K('V'),'IsOptText option')))
ov('Field','choice_default_value',[('option','Option (List Char)')],lit((K('DV'),'optText option')),lit((K('DV'),'IsOptText option')))
ov('CertificateSeedValue','key_usage',[('usages','List KeyUsage')],lit((K('KeyUsage'),'.array (usages.map fun u => pStr u.intoAscii)')),lit((K('KeyUsage'),'ArrayIs (usages.map IsKeyUsage)')))
ov('SignatureSeedValue','digest_method',[('methods','List SignatureDigestMethod')],lit((K('DigestMethod'),'.array (methods.map fun x => pName x.toName)')),lit((K('DigestMethod'),'ArrayIs (methods.map fun x => IsName (isoSignatureDigestMethod x))')))
ov('SignatureModificationDetectionPrevention','signature_type',[('p','MdpSignatureType')],lit((K('P'),'pInt p.toInt')),lit((K('P'),'IsInt (isoMdpSignatureType p)')))
# attributes
ov('Attributes','owner',[('owner','AttributeOwner'),('iso2020','Bool')],lit((K('O'),'pName (owner.toName iso2020)')),lit((K('O'),'IsOwner owner iso2020')))
ov('Attributes','user',[('props','List (List UserPropertyCall)')],lit((K('O'),'pName (AttributeOwner.user.toName false)'),(K('P'),'.array (props.map UserProperty.prog)')),
   lit((K('O'),N('UserProperties')),(K('P'),'ArrayIs (props.map IsUserProperty)')))
for m,w in (('layout','LayoutAttributes'),('list','ListAttributes'),('field','FieldAttributes'),('table','TableAttributes'),('artifact','ArtifactAttributes'),('note','FENoteAttributes')):
    ov('Attributes',m,[('calls','List %sCall'%w)],'%s.entries calls'%w,'%sEntries calls'%w)
ov('Attributes','namespace',[('ns','Ref'),('es','List (Bytes × Prog)')],lit((K('O'),'pName (AttributeOwner.nso.toName true)'),(K('NS'),'pRef ns'))+' ++ es',
   lit((K('O'),N('NSO')),(K('NS'),'IsRef ns'))+' ++ es.map fun e => (e.1, Denotes e.2)')
ov('LayoutAttributes','border_color',[('color','Sides Rgb')],lit((K('BorderColor'),'color.write Rgb.eq Rgb.prog')),lit((K('BorderColor'),'SidesAre IsRgb color')))
ov('LayoutAttributes','border_style',[('style','Sides LayoutBorderStyle')],lit((K('BorderStyle'),'style.write (· == ·) fun x => pName x.toName')),lit((K('BorderStyle'),'SidesAre (fun x => IsName (isoLayoutBorderStyle x)) style')))
ov('LayoutAttributes','table_border_style',[('style','Sides LayoutBorderStyle')],lit((K('TBorderStyle'),'style.write (· == ·) fun x => pName x.toName')),lit((K('TBorderStyle'),'SidesAre (fun x => IsName (isoLayoutBorderStyle x)) style')))
for m,k in (('border_thickness','BorderThickness'),('padding','Padding'),('table_padding','TPadding')):
    ov('LayoutAttributes',m,[('s','Sides F32')],lit((K(k),'s.write F32.eq pReal')),lit((K(k),'SidesAre IsNumber s')))
ov('LayoutAttributes','line_height',[('height','LineHeight')],lit((K('LineHeight'),'height.prog')),lit((K('LineHeight'),'IsLineHeight height')))
ov('LayoutAttributes','glyph_orientation_vertical',[('o','GlyphOrientationVertical')],lit((K('GlyphOrientationVertical'),'o.prog')),lit((K('GlyphOrientationVertical'),'IsGlyphOrientation o')))
ov('FieldAttributes','checked',[('checked','FieldState'),('pdf2','Bool')],lit(('(if pdf2 then b!"Checked" else b!"checked")','pName checked.toName')),lit(('(if pdf2 then b!"Checked" else b!"checked")','IsName (isoFieldState checked)')))
# structure
ov('StructElement','kind_2',[('role','StructRole2'),('ns','Ref')],'role20 role ++ [(b!"NS", pRef ns)]',lit((K('S'),'IsRole20 role'),(K('NS'),'IsRef ns')))
ov('StructChildren','marked_content_ref',[('calls','List MarkedRefCall')],'[MarkedRef.prog calls]','[IsMarkedRef calls]')
ov('StructChildren','object_ref',[('calls','List ObjectRefCall')],'[ObjectRef.prog calls]','[IsObjectRef calls]')
ov('RoleMap','insert',[('name','Bytes'),('role','StructRole')],lit(('name','pName role.toName')),lit(('name','IsRole17 role')))
ov('ClassMap','single',[('name','Bytes'),('calls','List AttributesCall')],lit(('name','Attributes.prog calls')),lit(('name','IsAttributes calls')))
ov('ClassMap','multiple',[('name','Bytes'),('xs','List (List AttributesCall)')],lit(('name','.array (xs.map Attributes.prog)')),lit(('name','ArrayIs (xs.map IsAttributes)')))
ov('NamespaceRoleMap','to_pdf_1_7',[('name','Bytes'),('role','StructRole')],lit(('name','pName role.toName')),lit(('name','IsRole17 role')))
ov('NamespaceRoleMap','to_namespace',[('name','Bytes'),('role','Bytes'),('ns','Ref')],lit(('name','.array [pName role, pRef ns]')),lit(('name','ArrayIs [IsName role, IsRef ns]')))
ov('NamespaceRoleMap','to_pdf_2_0',[('name','Bytes'),('role','StructRole2'),('ns','Ref')],'(role20 role).map fun e => (name, .array [e.2, pRef ns])',lit(('name','ArrayIs [IsRole20 role, IsRef ns]')))
for m,u,i in (('pdf_2_ns','https://www.iso.org/pdf2/ssn','http://iso.org/pdf2/ssn'),('pdf_1_7_ns','https://www.iso.org/pdf/ssn','http://iso.org/pdf/ssn'),('mathml_3_0_ns','https://www.w3.org/1998/Math/MathML','http://www.w3.org/1998/Math/MathML')):
    ov('Namespace',m,[],lit((K('NS'),'pText "%s".toList'%u)),lit((K('NS'),'IsText "%s".toList'%i)))
# methods not modelled in this layer
SKIPM={('Sides','new')}

KR=r'Name\(b"([^"]*)"\)'
SR=r'self(?:\.dict|\.stream|\.arr|\.array)?'
def recog(m):
    t=' '.join(x for x in m['body'] if not x.startswith('//')).strip()
    t=re.sub(r'\s*\n?\s*\.',r'.',t); t=re.sub(r'\s+',' ',t); t=re.sub(r' ?self$','',t).strip()
    r=re.fullmatch(SR+r'\.pair\('+KR+r', (.+)\);',t)
    if r and 'pair' not in r.group(2): return ('pair',r.group(1),r.group(2))
    r=re.fullmatch(SR+r'\.insert\('+KR+r'\)\.array\(\)(?:\.typed\(\))?\.items\((.+)\);',t)
    if r: return ('items',r.group(1),r.group(2))
    r=re.fullmatch(SR+r'\.insert\('+KR+r'\)\.array\(\)\.item\((.+)\);',t)
    if r: return ('items',r.group(1),'['+r.group(2)+']')
    r=re.fullmatch(SR+r'\.insert\('+KR+r'\)((?:\.start\(\)|\.array\(\)\.typed\(\)|\.dict\(\)\.typed\(\)|\.dict\(\)|))',t)
    if r: return ('nest',r.group(1),r.group(2))
    r=re.fullmatch(r'(\w+)::start\('+SR+r'\.insert\('+KR+r'\)\)',t)
    if r: return ('nest',r.group(2),'.start()')
    r=re.fullmatch(SR+r'\.item\((.+)\);',t)
    if r and ';' not in r.group(1): return ('aitem',r.group(1))
    return None
def params(sig):
    s=re.search(r'\((.*)\)',re.sub(r'->.*','',sig)).group(1)
    out=[];d=0;cur=''
    for c in s:
        if c in '<([': d+=1
        if c in '>)]': d-=1
        if c==',' and d==0: out.append(cur); cur=''
        else: cur+=c
    out.append(cur)
    out=[o.strip() for o in out if o.strip()]
    return [tuple(x.strip() for x in o.split(':',1)) for o in out if not re.match(r'(&mut |mut |&)?self$',o)]
def rettype(sig):
    g=re.search(r'-> (.*?) *\{',sig); return norm_ret(g.group(1)) if g else None
def norm_ret(t): return re.sub(r"'_, |<'_>|'a, |<'a>",'',t).strip()
ALLW=[w for _,ws in MODS for w in ws]
def one_of(t):
    """(lean type, model fn applied to %s, spec fn) of a nested type"""
    if t in('ColorSpace','Obj'): return ('Prog','%s','Denotes %s')
    if t=='Dict': return ('List (Bytes × Prog)','.dict %s','DictIs (%s.map fun e => (e.1, Denotes e.2))')
    if t in CHOICE: return (t,'%s.prog','Is'+t+' %s')
    g=re.match(r'(NameTree|NumberTree)<.*>$',t)
    if g: t=g.group(1)
    if t in ALLW: return ('List %sCall'%t,t+'.prog %s','Is'+t+' %s')
    s=scalar(t)
    return s
def nested(t):
    g=re.match(r'TypedArray<(.*)>$',t)
    if g:
        lt,m,s=one_of(g.group(1)); x='x'
        return ('List (%s)'%lt if ' ' in lt else 'List '+lt,'.array (%s.map fun x => '+m.replace('%s','x')+')','ArrayIs (%s.map fun x => '+s.replace('%s','x')+')')
    g=re.match(r'TypedDict<(.*)>$',t)
    if g:
        lt,m,s=one_of(g.group(1))
        return ('List (Bytes × %s)'%lt,'.dict (%s.map fun e => (e.1, '+m.replace('%s','e.2')+'))','DictIs (%s.map fun e => (e.1, '+s.replace('%s','e.2')+'))')
    return one_of(t)
def dockey(m,w,n):
    if (w,n) in DOCKEY: return DOCKEY[w,n]
    d=re.findall(r'`/([A-Za-z0-9_]+)`',m['doc']); e=re.findall(r'(?:Write|writing) the `(\w+)`',m['doc'])
    if e: return e[0]
    return d[0] if d else None
def val(e,ps):
    """model of a value expression; ps: dict rust name -> (lean name, rust type)"""
    e=e.strip()
    if e in ps:
        s=scalar(ps[e][1]); return s[1]%ps[e][0] if s else None
    g=re.match(r'(\w+)\.(to_name|to_int|to_i32|to_str)\(\)$',e)
    if g and g.group(1) in ps: return scalar(ps[g.group(1)][1])[1]%ps[g.group(1)][0]
    g=re.match(r'(\w+) as i32$',e)
    if g and g.group(1) in ps:
        n,t=ps[g.group(1)]
        if t=='bool': return 'pInt (if %s then 1 else 0)'%n
        assert ENUMS[t]['fn'] is None
        return scalar(t)[1]%n
    g=re.match(r'(\w+)\.bits\(\) as i32$',e)
    if g: return scalar(ps[g.group(1)][1])[1]%ps[g.group(1)][0]
    g=re.match(r'i32::from\((\w+)\)$',e)
    if g: return 'pInt %s.toNat'%ps[g.group(1)][0]
    g=re.match(r'if (\w+) \{ 1 \} else \{ 0 \}$',e)
    if g: return 'pInt (if %s then 1 else 0)'%ps[g.group(1)][0]
    g=re.match(r'Name\(b"(.*)"\)$',e)
    if g: return 'pName '+b(g.group(1))
    g=re.match(r'TextStr\((\w+)\)$',e)
    if g: return 'pText '+ps[g.group(1)][0]
    if e=='Name(format!("{major}.{minor}").as_bytes())': return 'pVersion %s %s'%(ps['major'][0],ps['minor'][0])
    g=re.match(r'(\w+)::(\w+)\.to_(name|int)\((\w*)\)$',e)
    if g:
        x=g.group(1)+'.'+esc(lower1(g.group(2)))
        if g.group(1)=='AttributeOwner': return 'pName (%s.toName %s)'%(x,g.group(4))
        return 'pName %s.toName'%x if g.group(3)=='name' else 'pInt %s.toInt'%x
    return None
RESERVED={'calls'}
def lname(x): return {'id':'r','class':'cls','type':'ty','end':'end_','default':'dflt','in':'in_'}.get(x,esc(camel(x)))
def build():
    W={}
    for m in methods():
        w=re.match(r'\w+',m['impl']).group(0); w={'Cmap':'CmapStream'}.get(w,w)
        if w not in ALLW: continue
        n=re.search(r'fn (\w+)',m['sig']).group(1)
        W.setdefault(w,[])
        ps=[(lname(a),t) for a,t in params(m['sig'])]
        psd={a:(lname(a),norm(t)) for a,t in params(m['sig'])}
        cite='%s:%d-%d'%(m['file'],m['line'],m['end'])
        e=dict(name=n,ctor=esc(camel(n)),cite=cite,w=w)
        if (w,n) in OV:
            o=OV[w,n]; e.update(args=o['args'],entries=o['entries'],means=o['means'])
            W[w].append(e); continue
        if (w,n)==('Stream','new'): continue
        r=recog(m)
        if r is None:
            print('UNRECOGNISED',w,n,m['body']); continue
        key=dockey(m,w,n)
        if r[0]=='nest':
            t=rettype(m['sig']); q=nested(t)
            if q is None: print('NEST?',w,n,t); continue
            a='calls' if q[0].startswith('List ') and q[0].endswith('Call') else 'x'
            e['args']=[(a,q[0])]
            e['entries']='[(%s, %s)]'%(K(r[1]),q[1]%a); e['means']='[(%s, %s)]'%(K(key),q[2]%a)
        elif r[0]=='pair':
            v=val(r[2],psd)
            if v is None: print('VAL?',w,n,r); continue
            args=[(a,argtype(t)[0]) for a,t in ps]; e['args']=args
            e['entries']='[(%s, %s)]'%(K(r[1]),v)
            if (w,n) in MEANS: e['means']=MEANS[w,n]([a for a,_ in args])
            else:
                assert len(ps)==1,(w,n)
                e['means']='[(%s, %s)]'%(K(key),argtype(ps[0][1])[2]%ps[0][0])
        elif r[0]=='items':
            args=[(a,argtype(t)[0]) for a,t in ps]; e['args']=args
            g=re.match(r'\[(.*)\]$',r[2])
            if g:
                xs=[val(x,psd) for x in g.group(1).split(',')]
                e['entries']='[(%s, .array [%s])]'%(K(r[1]),', '.join(xs))
                sp='ArrayIs [%s]'%', '.join(scalar(t)[2]%a for a,t in ps)
            else:
                assert r[2] in psd,(w,n,r)
                q=argtype(ps[0][1]); e['entries']='[(%s, %s)]'%(K(r[1]),q[1]%ps[0][0]); sp=q[2]%ps[0][0]
            e['means']=MEANS[w,n]([a for a,_ in args]) if (w,n) in MEANS else '[(%s, %s)]'%(K(key),sp)
        elif r[0]=='aitem':
            v=val(r[1],psd)
            if v is None: print('AITEM?',w,n,r); continue
            e['args']=[(a,argtype(t)[0]) for a,t in ps]
            e['entries']='[%s]'%v
            e['means']=MEANS[w,n]([a for a,_ in e['args']]) if (w,n) in MEANS else '[%s]'%(scalar(ps[0][1])[2]%ps[0][0])
        W[w].append(e)
    # methods of the macro common_func_methods! (functions.rs:27-44)
    for w in ('SampledFunction','PostScriptFunction'):
        L=[dict(name=k,ctor=k,cite='functions.rs:27-44',w=w,**OV[w,k]) for k in ('domain','range')]
        W[w]=L+W.get(w,[])
    W.setdefault('Metadata',[])
    for w in ALLW:
        d=DEREF.get(w)
        if d:
            c='%s:%d'%(d[1],d[2])
            if d[0]=='Dict': W[w].append(dict(name='raw',ctor='raw',cite=c,w=w,args=[('key','Bytes'),('value','Prog')],entries='[(key, value)]',means='[(key, Denotes value)]'))
            elif d[0]=='Stream': W[w].append(dict(name='stream',ctor='stream',cite=c,w=w,args=[('c','StreamCall')],entries='c.entries',means='StreamMeans c'))
            elif d[0]=='Array': W[w].append(dict(name='raw',ctor='raw',cite=c,w=w,args=[('value','Prog')],entries='[value]',means='[Denotes value]'))
            elif d[0]=='TypedDict': W[w].append(dict(name='pair',ctor='pair',cite=c,w=w,args=[('key','Bytes'),('value','Bytes')],entries='[(key, pName value)]',means='[(key, IsName value)]'))
    for w in ALLW:
        cs={e['ctor'] for e in W[w]}
        for e in W[w]:
            for a,t in list(e['args']):
                if a in cs:
                    nb=(a[:-1]+"'»" if a.endswith('»') else a+"'")
                    def rn(x): return re.sub(r'("[^"]*")|(?<![.\w\'])'+re.escape(a)+r"(?![\w'])",lambda g:g.group(1) or nb,x)
                    e['args']=[(nb if y==a else y,u) for y,u in e['args']]
                    e['entries']=rn(e['entries']); e['means']=rn(e['means'])
                    if (w,e['name']) in PANICS: PANICS[w,e['name']]=rn(PANICS[w,e['name']])
    return W

# ---------------------------------------------------------------- emission
HEAD='-- Generated by tools/typed.py from /repo/src; do not edit.\n'
def snake(w): return re.sub(r'(?<=[a-z0-9])(?=[A-Z])|(?<=[A-Z])(?=[A-Z][a-z])','_',w).lower()
def low(w): return w[0].lower()+w[1:]
def closure(S):
    S=set(S)
    for w in ALLW:
        for e in W[w]:
            for a,t in e['args']:
                if any(re.search(r'\b%sCall\b'%x,t) for x in S): S.add(w)
    return S
def nest_of(t,S):
    """the writer of S whose calls the argument type holds"""
    for x in S:
        if t=='List %sCall'%x: return x,True
        if t=='%sCall'%x: return x,False
    return None
def init_model(w):
    st=STARTS.get(w)
    out=[]
    for k,x in (st[3] if st else []):
        v=val(x,{}); assert v,(w,k,x)
        out.append('(%s, %s)'%(K(k),v))
    return out
def wcite(w):
    st=STARTS.get(w); return '%s:%d-%d'%(st[0],st[1],st[2]) if st else None
PROOFS={
 ('Annotation','border'):'cases dashPattern <;> simp only [Option.map, Option.toList] <;> implied',
 ('StructElement','kind_2'):'obtain ⟨p, hp, hi⟩ := l_role20 role; rw [hp]; exact .cons (entry_of rfl hi) (.cons (entry_of rfl (l_ref _)) .nil)',
 ('NamespaceRoleMap','to_pdf_2_0'):'obtain ⟨p, hp, hi⟩ := l_role20 role; rw [hp]; simp only [List.map_cons, List.map_nil]; implied',
 ('Field','into_annotation'):'refine Implied.append (by implied) (implied_flatMap _ fun c h => annotation_call rd c ?_); simp only [FieldCall.conforming, List.all_eq_true] at hc; exact hc.imp_right fun hc => hc c h',
 ('SignatureModificationDetectionPrevention','signature_type'):'cases p <;> implied',
}
for m,x in (('layout','LayoutAttributes'),('list','ListAttributes'),('field','FieldAttributes'),('table','TableAttributes'),('artifact','ArtifactAttributes'),('note','FENoteAttributes')):
    PROOFS['Attributes',m]='exact %s_implied _'%low(x)
PROOFS['Attributes','namespace']='refine Implied.append (by implied) ?_; have := implied_entries (f := fun e : Bytes × Prog => e) (g := fun e : Bytes × Prog => (e.1, Denotes e.2)) es (fun e => entry_of rfl (l_prog e.2)); simpa using this'
SAMPLE={'Int':'1','F32':'one','Bool':'true','UInt8':'1','UInt16':'1','Bytes':'b!"A"','List Char':'['+"'a', 'b'"+']','TextLike':'.plain ['+"'a'"+']','Ref':'⟨7, by decide, by decide⟩','Rect':'⟨one, one, two, two⟩',
 'Prog':'pInt 3','Prim':'.int 4','TransitionAngle':'.rightToLeft','LineHeight':'.normal','GlyphOrientationVertical':'.angle 90','KeyUsage':'⟨some true, none, some false, none, none, none, none, none, none⟩',
 'Sides F32':'⟨one, one, two, one⟩','Sides Rgb':'.uniform ⟨one, two, one⟩','Sides LayoutBorderStyle':'⟨.solid, .solid, .dotted, .solid⟩','StructRole':'.p','StructRole2':'.em','SystemInfo':'⟨b!"Adobe", b!"Identity", 0⟩',
 'AttributeOwner':'.css1','Option F32':'none','Option (List Char)':'none','Option (List F32)':'some [one]','MdpSignatureType':'.certificationSignature .fillAndSign','Fin 10 → UInt8':'fun i => UInt8.ofNat i.val','PropCall':'.mcid 1' }
def sample(t):
    t=t.strip()
    if t in SAMPLE: return SAMPLE[t]
    if t=='Date': return None
    g=re.match(r'List (.*)$',t)
    if g:
        u=g.group(1)
        if u.startswith('(') and u.endswith(')') : u=u[1:-1]
        v=sample(u); return None if v is None else '[%s]'%v
    g=re.match(r'(.*?) × (.*)$',t)
    if g:
        a,b_=sample(g.group(1)),sample(g.group(2)); return None if None in(a,b_) else '(%s, %s)'%(a,b_)
    g=re.match(r'(\w+)Call$',t)
    if g and g.group(1) in W:
        w=g.group(1)
        for e in W[w]:
            if (w,e['name']) in DEFECTS: continue
            r=call(e)
            if r: return r
    if t in CHOICE: return call(W[t][0])
    if t in ENUMS:
        for v in reversed(ENUMS[t]['variants']):
            n,p,d=var(v)
            if not p: return '.'+esc(lower1(n))
    if t+'s' in FLAGS: return '.'+esc(camel(FLAGS[t+'s']['consts'][-1][0].lower()))
    return None
def call(e):
    xs=[sample(t) for _,t in e['args']]
    if None in xs: return None
    return '.'+e['ctor']+''.join(' '+(x if re.match(r'^[\w.!"\[\]]*$',x) or (x[0] in '[(⟨' and x[-1] in '])⟩') else '(%s)'%x) for x in xs)
def sample_calls(w):
    xs=[e for e in W[w] if (w,e['name']) not in DEFECTS and call(e)]
    xs=[e for e in xs if e['name'] not in('raw','stream')]+[e for e in xs if e['name'] in('raw','stream')]
    n=len(xs); idx=sorted({0,n//3,2*n//3,n-1}) if n else []
    return '['+', '.join(call(xs[i]) for i in idx)+']'
def emit():
    bad=closure({w for w,_ in DEFECTS}); pan=closure({w for w,_ in PANICS})
    M,S=gen_enums()
    D=ROOT+'/lean/Verif/'
    def out(p,s):
        os.makedirs(os.path.dirname(D+p),exist_ok=True)
        if not os.path.exists(D+p) or open(D+p).read()!=s: open(D+p,'w').write(s)
    mdp=['/-- `MdpSignatureType` (forms.rs:861-867). -/','inductive MdpSignatureType where','  | approvalSignature','  | certificationSignature (p : AccessPermissions)','',
     '/-- `MdpSignatureType::to_int` (forms.rs:870-875). -/','def MdpSignatureType.toInt : MdpSignatureType → Int','  | .approvalSignature => 0','  | .certificationSignature p => p.toInt','']
    smdp=['/-- ISO 32000-2, Table 237, MDP: 0 for an approval signature, the access permissions of a certification signature. -/','def isoMdpSignatureType : MdpSignatureType → Int','  | .approvalSignature => 0','  | .certificationSignature p => isoAccessPermissions p','']
    out('Model/Typed/Enums.lean',HEAD+'import Verif.Model.Typed.Base\n\n/-! # Enumerations and flags -/\n\nnamespace PdfW\n\n'+'\n'.join(M+mdp)+'\nend PdfW\n')
    out('Spec/Typed/Enums.lean',HEAD+'import Verif.Model.Typed.Enums\nimport Verif.Spec.Typed.Base\n\n/-! # Enumerations and flags: the values the standard assigns (ISO 32000-1 unless noted) -/\n\nnamespace PdfW.Spec\nopen PdfW\n\n'+'\n'.join(S+smdp)+'\nend PdfW.Spec\n')
    P=[]
    for n in list(ISO_NAMES)+list(ISO_INTS):
        if n=='AttributeOwner' : continue
        P.append('@[simp] theorem iso%s_eq (x : %s) : iso%s x = x.%s := by cases x <;> rfl'%(n,n,n,conv_of(n)))
    P.append('@[simp] theorem isoMdpSignatureType_eq (x : MdpSignatureType) : isoMdpSignatureType x = x.toInt := by cases x <;> simp [isoMdpSignatureType, MdpSignatureType.toInt]')
    out('Proof/Typed/Enums.lean',HEAD+'import Verif.Proof.Typed.Tactic\nimport Verif.Spec.Typed.Enums\n\n/-! # Enumerations: the code writes the value the standard assigns -/\n\nnamespace PdfW\nopen Spec\n\n'+'\n'.join(P)+'\n\nend PdfW\n')
    for mod,ws in MODS:
        deps=['Enums' if d=='Base' else d for d in IMPORTS[mod]]
        m=[HEAD.rstrip()]+['import Verif.Model.Typed.%s'%d for d in deps]+['','/-! # Typed writers: %s -/'%', '.join('`%s`'%w for w in ws),'','namespace PdfW','']
        s=[HEAD.rstrip()]+(['import Verif.Model.Typed.%s'%mod]+['import Verif.Spec.Typed.%s'%d for d in deps])+['','/-! # Meaning of the calls of %s'%', '.join('`%s`'%w for w in ws),'','Keys from the documentation of each method, value types from the parameter types and ISO 32000. -/','','namespace PdfW.Spec','open PdfW','']
        p=[HEAD.rstrip()]+['import Verif.Spec.Typed.%s'%mod,'import Verif.Proof.Typed.Enums']+['import Verif.Proof.Typed.%s'%d for d in deps if d!='Enums']+['','/-! # %s -/'%mod,'','set_option linter.unusedSimpArgs false','set_option linter.unusedVariables false','','namespace PdfW','open Spec Props','']
        q=[HEAD.rstrip()]+['import Verif.Proof.Typed.%s'%mod,'import Verif.Proof.Typed.Sample']+['','/-! # %s: typed writers of module %s -/'%(PROP[mod],mod),'','set_option linter.unusedSimpArgs false','set_option linter.unusedVariables false','set_option maxRecDepth 8192','','namespace PdfW.Props','open PdfW PdfW.Spec','']
        for w in ws:
            es=W[w]; arr=w in ARRAYS; L=low(w)
            if w in CHOICE:
                m+=['/-- The calls of `%s`: it is consumed by one. -/'%w,'inductive %s where'%w]
                for e in es: m+=['  /-- %s -/'%e['cite'],'  | %s%s'%(e['ctor'],''.join(' (%s : %s)'%a for a in e['args']))]
                m+=['','/-- What they write. -/','def %s.prog : %s → Prog'%(w,w)]
                for e in es: m.append('  | .%s%s => %s'%(e['ctor'],''.join(' '+a for a,_ in e['args']),e['entries']))
                m.append('')
                s+=['/-- The value a call of `%s` stands for. -/'%w,'def Is%s : %s → Val → Prop'%(w,w)]
                for e in es: s.append('  | .%s%s => %s'%(e['ctor'],''.join(' '+a for a,_ in e['args']),e['means']))
                s.append('')
                p+=['theorem %s_denotes (c : %s) : ItemImplied c.prog (Is%s c) := by'%(L,w,w),'  cases c <;> simp only [%s.prog, Is%s] <;> leaf'%(w,w),'']
                q+=['/-- %s, `%s`: the call is written as the value it stands for. -/'%(PROP[mod],w),'theorem %s_%s (c : %s) (hok : Ok c.prog) : WrittenAs c.prog (Is%s c) := writtenAs_of hok (%s_denotes c)'%(PROP[mod],snake(w),w,w,L),'']
                x='(%s : %s)'%(call(es[1]),w)
                q+=['example : Ok %s.prog := okB_sound _ (by decide +kernel)'%x,'']
                continue
            fn='items' if arr else 'entries'; ty='List Prog' if arr else 'List (Bytes × Prog)'; sty='List (Val → Prop)' if arr else 'List (Bytes × (Val → Prop))'
            C=w+'Call'
            m+=['/-- Calls of public methods of `%s`%s. -/'%(w,' (%s)'%wcite(w) if wcite(w) else ''),'inductive %s where'%C]
            for e in es: m+=['  /-- %s -/'%e['cite'],'  | %s%s'%(e['ctor'],''.join(' (%s : %s)'%a for a in e['args']))]
            m+=['','/-- The %s each method inserts. -/'%fn,'def %s.%s : %s → %s'%(C,fn,C,ty)]
            for e in es: m.append('  | .%s%s => %s'%(e['ctor'],''.join(' '+a for a,_ in e['args']),e['entries']))
            ini=init_model(w)
            m+=['','/-- All %s of the object: those of the constructor%s, then those of the calls. -/'%(fn,' (%s)'%wcite(w) if wcite(w) else ''),
                'def %s.%s (calls : List %s) : %s := %scalls.flatMap %s.%s'%(w,fn,C,ty,('[%s] ++ '%', '.join(ini) if ini else ''),C,fn),'']
            if w not in STREAMS: m+=['/-- The object written. -/','def %s.prog (calls : List %s) : Prog := .%s (%s.%s calls)'%(w,C,'array' if arr else 'dict',w,fn),'']
            iso=['(%s, %s)'%(K(k),v) for k,v in ISO_INIT.get(w,[])]
            assert len(iso)==len(ini),(w,ini,iso)
            En='Items' if arr else 'Entries'
            s+=['/-- %s. -/'%('The items a call of `%s` stands for'%w if arr else 'The entries a call of `%s` stands for: key and meaning of the value'%w),'def %sMeans : %s → %s'%(w,C,sty)]
            isbad=w in bad; ispan=w in pan
            rdp=' (rd : Reading)' if isbad else ''; rda=' rd' if isbad else ''
            if isbad: s[-1]='def %sMeans%s : %s → %s'%(w,rdp,C,sty)
            def rdm(x): return re.sub(r'\b(\w+)Means\b',lambda g:'(%s rd)'%g.group(0) if g.group(1) in bad else g.group(0),re.sub(r'\bIs(\w+)\b',lambda g:g.group(0)+' rd' if g.group(1) in bad else g.group(0),x))
            for e in es:
                mm=rdm(e['means'])
                if (w,e['name']) in DEFECTS: mm='rd.pick %s %s'%(mm,ACTUAL[w,e['name']])
                s.append('  | .%s%s => %s'%(e['ctor'],''.join(' '+a for a,_ in e['args']),mm))
            s+=['','def %s%s%s (calls : List %s) : %s := %scalls.flatMap %s'%(w,En,rdp,C,sty,('[%s] ++ '%', '.join(iso) if iso else ''),'(%sMeans rd)'%w if isbad else w+'Means'),'']
            if w not in STREAMS: s+=['def Is%s%s (calls : List %s) : Val → Prop := %s (%s%s%s calls)'%(w,rdp,C,'ArrayIs' if arr else 'DictIs',w,En,rda),'']
            if isbad:
                s+=['/-- Calls whose behaviour is as documented (see `Props/Typed/Defects.lean` for the others). -/','def _root_.PdfW.%s.conforming : %s → Bool'%(C,C)]
                for e in es:
                    n_=[(a,nest_of(t,bad)) for a,t in e['args'] if nest_of(t,bad)]
                    if (w,e['name']) in DEFECTS: s.append('  | .%s%s => false'%(e['ctor'],' _'*len(e['args'])))
                    elif n_: 
                        assert len(e['args'])==1
                        s.append('  | .%s %s => %s.all %sCall.conforming'%(e['ctor'],n_[0][0],n_[0][0],n_[0][1][0]))
                if len([1 for l in es])>len([1 for e in es if (w,e['name']) in DEFECTS or any(nest_of(t,bad) for _,t in e['args'])]): s.append('  | _ => true')
                s.append('')
            if ispan:
                m+=['/-- Does the call panic (`assert!`)? -/','def %s.panics : %s → Bool'%(C,C)]
                cnt=0
                for e in es:
                    n_=[(a,nest_of(t,pan)) for a,t in e['args'] if nest_of(t,pan)]
                    if (w,e['name']) in PANICS: m.append('  | .%s %s => %s'%(e['ctor'],e['args'][0][0],PANICS[w,e['name']])); cnt+=1
                    elif n_:
                        a,(x,isl)=n_[0]; m.append('  | .%s %s => %s'%(e['ctor'],a,'%s.any %sCall.panics'%(a,x) if isl else '%s.panics'%a)); cnt+=1
                if cnt<len(es): m.append('  | _ => false')
                m.append('')
                if w not in STREAMS: m+=['/-- The object written by a sequence of calls; `none` if one of them panics. -/','def %s.run (calls : List %s) : Option Prog := if calls.any %s.panics then none else some (%s.prog calls)'%(w,C,C,w),'']
            if w in STREAMS:
                if ispan: m+=['/-- The stream written; `none` if one of the calls panics, or the stream is too long. -/','def %s.write (calls : List %s) (c : Chunk) (r : Ref) (data : Bytes) : Option Chunk :=\n  if calls.any %s.panics then none else c.writeStream r (%s.entries calls) data'%(w,C,C,w),'']
                else: assert False,w
            rel='ItemImplied' if arr else 'EntryImplied'
            p+=['theorem %s_call%s (c : %s)%s : Implied %s c.%s (%sMeans%s c) := by'%(L,rdp,C,' (hc : rd = .code ∨ c.conforming = true)' if isbad else '',rel,fn,w,rda),'  cases c with']
            for e in es:
                p.append('  | %s%s =>'%(e['ctor'],''.join(' '+a for a,_ in e['args'])))
                if (w,e['name']) in DEFECTS: p.append('    obtain rfl : rd = .code := by simpa [%s.conforming] using hc'%C); p.append('    simp only [%s.%s, %sMeans, Reading.pick]'%(C,fn,w)); p.append('    have nest := action_denotes' if 'IsAction' in ACTUAL[w,e['name']] else ''); p.append('    implied'); continue
                if (w,e['name'])in PROOFS and w=='Field': pass
                nb=[(a,nest_of(t,bad)) for a,t in e['args'] if nest_of(t,bad)]
                p.append('    simp only [%s.%s, %sMeans]'%(C,fn,w))
                if (w,e['name']) in PROOFS: p.append('    '+PROOFS[w,e['name']]); continue
                if nb:
                    a,(x,isl)=nb[0]
                    p.append('    have nest := %s_denotes rd %s (by simpa [%s.conforming] using hc)'%(low(x),a,C))
                else:
                    xs=sorted(set(re.findall(r'\bIs(\w+)\b',e['means']))&set(ALLW)); assert len(xs)<2
                    for x in xs: p.append('    have nest := %s_denotes'%low(x))
                if e['means']=='StreamMeans c': p.append('    exact stream_call c')
                else: p.append('    implied')
            p.append('')
            hh=' (hc : rd = .code ∨ calls.all %s.conforming = true)'%C if isbad else ''
            each='fun c h => %s_call%s c%s'%(L,rda,' (hc.imp_right fun hc => List.all_eq_true.mp hc c h)' if isbad else '')
            body='implied_flatMap calls (%s)'%each
            p+=['theorem %s_implied%s (calls : List %s)%s : Implied %s (%s.%s calls) (%s%s%s calls) :='%(L,rdp,C,hh,rel,w,fn,w,En,rda),'  '+('Implied.append (by implied) (%s)'%body if ini else body),'']
            hcarg=' hc' if isbad else ''
            if w not in STREAMS: p+=['theorem %s_denotes%s (calls : List %s)%s : ItemImplied (%s.prog calls) (Is%s%s calls) :='%(L,rdp,C,hh,w,w,rda),'  %s (%s_implied%s calls%s)'%('l_array' if arr else 'l_dict',L,rda,hcarg),'']
            pid=PROP[mod]; th='%s_%s'%(pid,snake(w)); what='array' if arr else 'dictionary'
            sm=sample_calls(w); sn='ex%s'%w
            q+=['/-- Example calls. -/','def %s : List %s := %s'%(sn,C,sm),'']
            exc=' If a call with a known defect is used, the entry it writes is the one of the code (see Defects), otherwise all are those of the standard.' if isbad else ''
            if w in STREAMS:
                q+=['/-- %s, `%s`: any sequence of calls without an out-of-range argument writes a stream with the data and, in order, the documented entries.%s -/'%(pid,w,exc),
                 'theorem %s (calls : List %s)%s (hp : calls.any %s.panics = false)'%(th,C,hh,C),
                 '    (hok : OkEntries (%s.entries calls)) (hl : ∀ e ∈ %s.entries calls, e.1 ≠ b!"Length") :'%(w,w),
                 '    StreamWrittenAs (%s.write calls) (%s.entries calls) (%sEntries calls) :='%(w,w,w),
                 '  streamWrittenAs_of (by intro c r data; rw [%s.write, if_neg (by rw [hp]; exact Bool.false_ne_true)]) hok hl (%s_implied calls%s)'%(w,L,hcarg),'',
                 'example : %s.any %s.panics = false ∧ OkEntries (%s.entries %s) ∧ ∀ e ∈ %s.entries %s, e.1 ≠ b!"Length" :='%(sn,C,w,sn,w,sn),
                 '  ⟨by decide +kernel, okEntriesB_sound _ (by decide +kernel), by decide +kernel⟩',
                 'example : streamOut (%s.write %s) = some @@%s.write %s@@ := by decide +kernel'%(w,sn,w,sn),'']
            elif ispan:
                q+=['/-- %s, `%s`: any sequence of calls without an out-of-range argument writes a %s with, in order, the documented entries.%s -/'%(pid,w,what,exc),
                 'theorem %s%s (calls : List %s) (p : Prog) (hp : %s.run calls = some p)%s (hok : Ok p) : WrittenAs p (Is%s%s calls) := by'%(th,rdp,C,w,hh,w,rda),
                 '  unfold %s.run at hp'%w,'  split at hp','  · cases hp','  · cases hp; exact writtenAs_of hok (%s_denotes%s calls%s)'%(L,rda,hcarg),'',
                 'example : ∃ p, %s.run %s = some p ∧ Ok p := ⟨_, rfl, okB_sound _ (by decide +kernel)⟩'%(w,sn)]
                if isbad: q.append('example : %s.all %s.conforming = true := by decide +kernel'%(sn,C))
                q+=['example : compactOut (%s.prog %s) = @@%s.prog %s@@ := by decide +kernel'%(w,sn,w,sn),'']
            else:
                q+=['/-- %s, `%s`: any sequence of calls writes %s with, in order, the documented %s.%s -/'%(pid,w,'an array' if arr else 'a dictionary',fn,exc),
                 'theorem %s%s (calls : List %s)%s (hok : Ok (%s.prog calls)) : WrittenAs (%s.prog calls) (Is%s%s calls) :='%(th,rdp,C,hh,w,w,w,rda),
                 '  writtenAs_of hok (%s_denotes%s calls%s)'%(L,rda,hcarg),'',
                 'example : Ok (%s.prog %s) := okB_sound _ (by decide +kernel)'%(w,sn)]
                if isbad: q.append('example : %s.all %s.conforming = true := by decide +kernel'%(sn,C))
                q+=['example : compactOut (%s.prog %s) = @@%s.prog %s@@ := by decide +kernel'%(w,sn,w,sn),'']
        out('Model/Typed/%s.lean'%mod,'\n'.join(m+['end PdfW',''])); out('Spec/Typed/%s.lean'%mod,'\n'.join(s+['end PdfW.Spec','']))
        out('Proof/Typed/%s.lean'%mod,'\n'.join(p+['end PdfW','']))
        QS[mod]='\n'.join(q+['end PdfW.Props',''])
        if '--props' in sys.argv:
            t=QS[mod]
            cache=ROOT+'/tools/sample_bytes.json'; import json
            B=json.load(open(cache)) if os.path.exists(cache) else {}
            def sub(g):
                k=g.group(1)
                if k not in B: return 'b!"?"'
                return B[k]
            out('Props/Typed/%s.lean'%mod,re.sub(r'@@(.*?)@@',sub,t))
QS={}
if __name__=='__main__':
    W=build()
    print(sum(len(x) for x in W.values()),'methods')
    for w in ALLW:
        if w not in W: print('NO WRITER',w)
    if 'x' in sys.argv:
        for w in ALLW:
            print('==',w,STARTS.get(w))
            for e in W[w]: print('  ',e['ctor'],e['args'],'|',e['entries'],'|',e['means'])
    else: emit()
