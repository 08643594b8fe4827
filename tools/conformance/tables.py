from interp import *
from interp import V,Un,ci,W,INT,CONST,SIG,CTOR,FREE,METH,FIELD,BASES,SETTER,BIN,blist,Fraction
def single(): return V('fmt','c','Fp.single')
def dbl(): return V('fmt','c','Fp.double')
def L(term,lt,ty): return V(ty,'l',term,lt)
# ---------------- value types
BASES['pitch_bend_sensitivity']='pitch_7_25'
VT={'velocity':'U16','pitch_7_9':'U16','pitch_bend':'Word','pitch_7_25':'Word','pitch_bend_sensitivity':'Word','controller_value':'Word','pitch_increment':'Word','controller_increment':'Word','jr_timestamp_t':'U16'}
def fmtof(v): return single() if v.ty=='float' or getattr(v,'f',None)=='s' else dbl()
def isf(v): return v.ty in('float','double')
def raw(lt,ty):
    def f(s,v): return L(f'({s.co(v,lt)} : {lt})',lt,ty)
    return f
def cv(s,ty,default,args,table):
    if not args: return default(s)
    a=args[0]
    if a.k=='list' and not a.v: return default(s)
    for pred,fn in table:
        if pred(a): return fn(s,a)
    raise Un(f'ctor {ty} {a}')
isT=lambda *ts: (lambda a:a.ty in ts)
def c_velocity(s,args):
    return cv(s,'velocity',lambda s:s.app('defaultVelocity',ret='velocity'),args,[(isT('uint7_t','uint8_t'),lambda s,a:s.app('velocityOf7',a,ret='velocity')),
      (isT('uint16_t','uint14_t'),raw('U16','velocity')),(isf,lambda s,a:s.app('Fp.velocityOf',a,ret='velocity'))])
def c_pb(s,args):
    return cv(s,'pitch_bend',lambda s:s.app('defaultPitchBend',ret='pitch_bend'),args,[(isT('uint14_t','uint16_t'),lambda s,a:s.app('pitchBendOf14',a,ret='pitch_bend')),
      (isT('uint32_t','unsigned int'),raw('Word','pitch_bend')),(isf,lambda s,a:s.app('Fp.pitchBendOf',fmtof(a),a,ret='pitch_bend'))])
def c_pinc(s,args):
    return cv(s,'pitch_increment',lambda s:L('(0 : Word)','Word','pitch_increment'),args,[(isT('int','int32_t'),raw('Word','pitch_increment')),
      (isT('float'),lambda s,a:s.app('Fp.pitchIncrementOfFloat',a,ret='pitch_increment')),(isT('double'),lambda s,a:s.app('Fp.pitchIncrementOfDouble',a,ret='pitch_increment'))])
def c_p79(s,args):
    return cv(s,'pitch_7_9',lambda s:L('(0 : U16)','U16','pitch_7_9'),args,[(isT('note_nr_t','uint7_t','uint8_t'),lambda s,a:s.app('pitch79OfNote',a,ret='pitch_7_9')),
      (isT('uint16_t','uint14_t'),raw('U16','pitch_7_9')),(isf,lambda s,a:s.app('Fp.pitch79Of',fmtof(a),a,ret='pitch_7_9'))])
def c_p725(ty,default):
    def f(s,args):
        return cv(s,ty,default,args,[(isT('note_nr_t','uint7_t','uint8_t'),lambda s,a:s.app('pitch725OfNote',a,ret=ty)),(isT('pitch_7_9'),lambda s,a:s.app('pitch725Of79',a,ret=ty)),
          (isT('controller_value'),lambda s,a:s.app('pitchOfController',a,ret=ty)),(isT('uint32_t','unsigned int'),raw('Word',ty)),
          (isT('pitch_7_25'),lambda s,a:L(a.v,a.lt,ty)),
          (isf,lambda s,a:s.app('Fp.pitch725Of',fmtof(a),a,ret=ty))])
    return f
def c_cval(s,args):
    return cv(s,'controller_value',lambda s:L('(0 : Word)','Word','controller_value'),args,[(isT('uint7_t','uint8_t'),lambda s,a:s.app('controllerOf7',a,ret='controller_value')),
      (isT('uint14_t','uint16_t'),lambda s,a:s.app('controllerOf14',a,ret='controller_value')),(isT('uint32_t','unsigned int'),raw('Word','controller_value')),
      (isT('pitch_7_25','pitch_bend_sensitivity'),lambda s,a:s.app('controllerOfPitch',a,ret='controller_value')),
      (isf,lambda s,a:s.app('Fp.controllerOf',a,ret='controller_value'))])
def c_cinc(s,args): return cv(s,'controller_increment',lambda s:L('(0 : Word)','Word','controller_increment'),args,[(s.isint,raw('Word','controller_increment'))])
def c_jrt(s,args): return cv(s,'jr_timestamp_t',lambda s:L('(0 : U16)','U16','jr_timestamp_t'),args,[(s.isint,raw('U16','jr_timestamp_t'))])
CTOR.update(velocity=c_velocity,pitch_bend=c_pb,pitch_increment=c_pinc,pitch_7_9=c_p79,pitch_7_25=c_p725('pitch_7_25',lambda s:L('(0 : Word)','Word','pitch_7_25')),
  pitch_bend_sensitivity=c_p725('pitch_bend_sensitivity',lambda s:s.app('defaultSensitivity',ret='pitch_bend_sensitivity')),controller_value=c_cval,controller_increment=c_cinc,jr_timestamp_t=c_jrt)
for t,lt in VT.items():
    FIELD[(t,'value')]=(lambda sgn,lt:(lambda s,o:L(o.v,lt,'int32_t' if sgn else {'U16':'uint16_t','Word':'uint32_t'}[lt])))(t.endswith('increment'),lt)
def flt(fn,*pre):
    def f(s,o): 
        args=[p() for p in pre]+[o];return s.app(fn,*args,ret='float')
    return f
for t,fn in(('velocity','Fp.velocityAs'),('pitch_7_9','Fp.pitch79As'),('controller_value','Fp.controllerAs')):
    METH[(t,'as_float')]=flt(fn,single)
    METH[(t,'as_double')]=(lambda fn:lambda s,o:L(s.app(fn,dbl(),o,ret='double').v,'Flt','double'))(fn)
for t,fn in(('pitch_bend','Fp.pitchBendAs'),('pitch_7_25','Fp.pitch725As')):
    METH[(t,'as_float')]=flt(fn+'Float');METH[(t,'as_double')]=(lambda fn:lambda s,o:L(s.app(fn+'Double',o,ret='double').v,'Flt','double'))(fn)
def g(fn,ret,*defaults):
    """a getter or a pure method"""
    def f(s,o,*a): return s.app(fn,o,*a,ret=ret)
    return f
METH.update({('velocity','as_uint7'):g('velocityAs7','uint7_t'),('pitch_bend','as_uint14'):g('pitchBendAs14','uint14_t'),('pitch_7_9','note_nr'):g('pitch79Note','note_nr_t'),
 ('pitch_7_25','note_nr'):g('pitch725Note','note_nr_t'),('controller_value','as_uint7'):g('controllerAs7','uint7_t'),('controller_value','as_uint14'):g('controllerAs14','uint14_t')})
def mut(fn):
    def f(s,o,*a): return (s.app(fn,o,*a,ret=o.ty),None)
    return f
METH[('pitch_bend','reset')]=mut('pitchBendReset')
def b2(fn,ret):
    return lambda s,a,b:s.app(fn,a,b,ret=ret or a.ty)
BIN.update({('pitch_increment','+','pitch_increment'):b2('pitchIncAdd',None),('pitch_increment','+=','pitch_increment'):b2('pitchIncAddAssign',None),
 ('pitch_7_25','+','pitch_increment'):b2('pitch725Add','pitch_7_25'),('pitch_7_25','+=','pitch_increment'):b2('pitch725AddAssign',None),
 ('pitch_7_25','+','float'):b2('Fp.pitch725DetuneFloat','pitch_7_25'),('pitch_7_25','+','double'):b2('Fp.pitch725Detune','pitch_7_25'),
 ('pitch_bend','*','pitch_bend_sensitivity'):b2('bendTimesSensitivity','pitch_increment'),('pitch_bend_sensitivity','*','pitch_bend'):b2('sensitivityTimesBend','pitch_increment'),
 ('controller_value','+','controller_increment'):b2('controllerAdd','controller_value'),('controller_value','+=','controller_increment'):b2('controllerAddAssign','controller_value')})
METH[('assign','pitch_7_25')]=lambda s,o,r:s.app('pitch725Of79',r,ret='pitch_7_25') if r.ty=='pitch_7_9' else r
def cmpf(o):
    def f(s,a,b): raise Un('float cmp')
    return f
# device identity
CTOR['device_identity']=lambda s,a:L('(⟨'+', '.join(s.co(x,t) for x,t in zip(a,('Word','U16','U16','Word')))+'⟩ : DeviceIdentity)','DeviceIdentity','device_identity') if len(a)==4 else (L('(⟨0, 0, 0, 0⟩ : DeviceIdentity)','DeviceIdentity','device_identity') if not a else (_ for _ in()).throw(Un('identity')))
CTOR['identity_t']=CTOR['device_identity']
for n,lt,ty in(('manufacturer','Word','uint32_t'),('family','U16','uint14_t'),('model','U16','uint14_t'),('revision','Word','uint28_t')):
    FIELD[('device_identity',n)]=(lambda n,lt,ty:lambda s,o:L(f'{o.v}.{n}',lt,ty))(n,lt,ty)
def eqdec(s,a,b): return f'decide ({a.v} = {s.co(b,a.lt)})'
def nedec(s,a,b): return f'!decide ({a.v} = {s.co(b,a.lt)})'
METH[('==','device_identity')]=eqdec;METH[('!=','device_identity')]=nedec
# ---------------- scaling
for c,l,r in(('downsample_16_to_7bit','downsample16to7','uint7_t'),('downsample_32_to_7bit','downsample32to7','uint7_t'),('downsample_32_to_14bit','downsample32to14','uint14_t'),
 ('upsample_7_to_16bit','upsample7to16','uint16_t'),('upsample_7_to_32bit','upsample7to32','uint32_t'),('upsample_14_to_32bit','upsample14to32','uint32_t'),('upsample_x_to_ybit','upsampleXtoY','uint32_t')):
    FREE[c]=(lambda l,r:lambda s,*a:s.app(l,*a,ret=r))(l,r)
# ---------------- packets
UP='universal_packet'
for t in 'utility_message system_message midi1_channel_voice_message midi2_channel_voice_message data_message extended_data_message stream_message flex_data_message jr_message'.split(): BASES[t]=UP
BASES.update(sysex7_packet='data_message',sysex8_packet='extended_data_message',jr_clock_message='jr_message',jr_timestamp_message='jr_message')
def isp(v): return v.k=='l' and v.lt=='Packet'
def c_up(s,a):
    if len(a)==1 and isp(a[0]): return L(a[0].v,'Packet',UP)
    return s.app('Packet.ofWords',V('l','wl',a),ret=UP) if False else L(s.cx.let(':=','Packet.ofWords ['+', '.join(s.co(x,'Word') for x in a)+']','Packet'),'Packet',UP)
CTOR[UP]=c_up
def ctor(ty,table):
    def f(s,a):
        if len(a)==1 and isp(a[0]) and 'P' not in table: return L(a[0].v,'Packet',ty)
        key='P' if len(a)==1 and isp(a[0]) else len(a)
        if key not in table: raise Un(f'ctor {ty} {key}')
        fn,pad=table[key];return s.app(fn,*(list(a)+pad),ret=ty)
    return f
CTOR.update(utility_message=ctor('utility_message',{0:('utilityDefault',[]),1:('makeUtility',[ci(0)]),2:('makeUtility',[])}),system_message=ctor('system_message',{0:('systemDefault',[]),2:('makeSystem',[ci(0),ci(0)]),3:('makeSystem',[ci(0)]),4:('makeSystem',[])}),
 midi1_channel_voice_message=ctor('midi1_channel_voice_message',{0:('midi1CVDefault',[]),2:('midi1Message',[ci(0),ci(0)]),3:('midi1Message',[ci(0)]),4:('midi1Message',[]),'P':('midi1OfPacket',[])}),
 midi2_channel_voice_message=ctor('midi2_channel_voice_message',{0:('midi2CVDefault',[]),'P':('midi2OfPacket',[]),6:('midi2Message',[]),5:('midi2Message',[ci(0)]),4:('midi2Message',[ci(0),ci(0)])}),
 data_message=ctor('data_message',{0:('dataDefault',[]),1:('dataMessage',[])}),sysex7_packet=ctor('sysex7_packet',{0:('dataDefault',[]),2:('sysex7Packet',[])}),
 extended_data_message=ctor('extended_data_message',{0:('extendedDataDefault',[]),1:('extendedDataMessage',[])}),sysex8_packet=ctor('sysex8_packet',{0:('sysex8Default',[]),3:('sysex8Packet',[])}),
 stream_message=ctor('stream_message',{0:('streamDefault',[]),1:('streamMessage',[ci(0)]),2:('streamMessage',[])}),
 flex_data_message=ctor('flex_data_message',{0:('flexDefault',[ci(0)]),1:('flexDefault',[]),6:('flexMessage',[ci(0)]*3),7:('flexMessage',[ci(0)]*2),8:('flexMessage',[ci(0)]),9:('flexMessage',[])}),
 jr_clock_message=ctor('jr_clock_message',{0:('Jr.makeClock',[ci(0)]),1:('Jr.makeClock',[])}),jr_timestamp_message=ctor('jr_timestamp_message',{0:('Jr.makeTimestamp',[ci(0)]),1:('Jr.makeTimestamp',[])}))
for n,fn,r in(('type','Packet.type','packet_type'),('size','Packet.size','size_t'),('group','Packet.group','group_t'),('status','Packet.status','status_t'),('byte2','Packet.byte2','uint8_t'),('byte3','Packet.byte3','uint8_t'),
 ('byte4','Packet.byte4','uint8_t'),('get_byte','Packet.getByte','uint8_t'),('get_byte_7bit','Packet.getByte7','uint7_t'),('has_channel','Packet.hasChannel','bool'),('channel','Packet.channel','channel_t'),
 ('is_utility_message','Packet.isUtility','bool'),('is_system_message','Packet.isSystem','bool'),('is_channel_voice_message','Packet.isChannelVoice','bool'),('is_data_message','Packet.isData','bool'),('is_midi1_protocol_message','Packet.isMidi1Protocol','bool')):
    METH[(UP,n)]=g(fn,r)
for n,fn in(('set_type','Packet.setType'),('set_group','Packet.setGroup'),('set_byte','Packet.setByte'),('set_byte_7bit','Packet.setByte7'),('reset','Packet.reset')): METH[(UP,n)]=mut(fn)
FIELD[(UP,'data')]=lambda s,o:V('words','l',o.v,'Packet')
def setword(s,o,i,v): return s.app('Packet.setWord',o,i,v,ret=o.ty)
SETTER[(UP,'data[]')]=setword
METH[('==',UP)]=lambda s,a,b:f'({a.v}.eqv {s.co(b if b.k=="l" else s.construct(UP,b.v),"Packet")})'
METH[('!=',UP)]=lambda s,a,b:f'({a.v}.neqv {s.co(b,"Packet")})'
METH[('stream_message','format')]=g('streamFormat','packet_format');METH[('stream_message','set_format')]=mut('streamSetFormat')
for t,n in(('sysex7_packet','sysex7'),('sysex8_packet','sysex8')):
    METH[(t,'format')]=g(n+'Format','packet_format');METH[(t,'payload_size')]=g(n+'PayloadSize','size_t');METH[(t,'payload_byte')]=g(n+'PayloadByte','uint8_t')
    METH[(t,'set_payload_byte')]=mut(n+'SetPayloadByte');METH[(t,'set_payload_size')]=mut(n+'SetPayloadSize');METH[(t,'add_payload_byte')]=mut(n+'AddPayloadByte')
METH[('sysex8_packet','stream_id')]=g('sysex8StreamId','uint8_t');METH[('sysex8_packet','set_stream_id')]=mut('sysex8SetStreamId')
for n,fn,r in(('format','flexFormat','packet_format'),('address','flexAddressCode','packet_address'),('status_bank','flexStatusBank','status_t'),('status','flexStatus','status_t'),('payload_as_string','flexPayloadAsString','string')):
    METH[('flex_data_message',n)]=g(fn,r);METH[('flex_data_message_view',n)]=g(fn,r)
METH[('flex_data_message_view','group')]=g('flexGroup','group_t');METH[('flex_data_message_view','channel')]=g('flexChannel','channel_t')
METH[('flex_data_message','static payload_as_string')]=lambda s,p:s.app('flexPayloadAsString',p,ret='string')
METH[('stream_message','static payload_as_string')]=lambda s,p,o:s.app('streamPayloadAsString',p,o,ret='string')
for i in (1,2,3): METH[('flex_data_message_view',f'data{i}')]=(lambda i:lambda s,o:L(f'(flexData {o.v}).'+['1','2.1','2.2'][i-1],'Word','uint32_t'))(i)
METH[('jr_message','timestamp')]=g('Jr.timestamp','jr_timestamp_t');METH[('jr_message','set_timestamp')]=mut('Jr.setTimestamp')
BIN[('jr_timestamp_t','-','jr_timestamp_t')]=lambda s,a,b:s.app('Jr.ticksBetween',a,b,ret='jr_ticks')
METH[('jr_ticks','count')]=lambda s,o:L(o.v,'Int','int64_t')
# views of packets
def view(cls,ctorfn,asfn,getters,ctorpre=(),ascpp=None):
    CTOR[cls]=lambda s,a:L(s.app(ctorfn,*ctorpre,a[0],ret=cls).v,'Packet',cls)
    if asfn: FREE[ascpp or 'as_'+cls]=lambda s,p:s.app(asfn,p,ret=cls)
    for n,fn,r in getters: METH[(cls,n)]=g(fn,r)
view('utility_message_view','utilityView',None,[('status','utilityStatus','status_t'),('payload','utilityPayload','uint16_t'),('data','utilityPayload','uint16_t')])
view('system_message_view','systemView','asSystemView',[('group','Packet.group','group_t'),('status','Packet.status','status_t'),('data_byte_1','systemData1','uint7_t'),('data_byte_2','systemData2','uint7_t'),('get_song_position','songPositionOf','uint14_t')])
view('midi1_channel_voice_message_view','midi1View','asMidi1View',[('group','Packet.group','group_t'),('status','midi1Status','status_t'),('channel','midi1Channel','channel_t'),('data_byte_1','midi1Data1','uint7_t'),('data_byte_2','midi1Data2','uint7_t'),('get_14bit_value','midi1Value14','uint14_t')])
view('midi2_channel_voice_message_view','midi2View','asMidi2View',[('group','Packet.group','group_t'),('status','midi2Status','status_t'),('channel','midi2Channel','channel_t'),('byte3_7bit','midi2Byte3','uint7_t'),('byte4_7bit','midi2Byte4','uint7_t'),('data','midi2Data','uint32_t')])
view('sysex7_packet_view','sysex7View','asSysex7View',[('group','Packet.group','group_t'),('status','sysex7ViewStatus','status_t'),('format','sysex7Format','packet_format'),('payload_size','sysex7PayloadSize','size_t'),('payload_byte','sysex7PayloadByte','uint8_t')])
view('sysex8_packet_view','sysex8View','asSysex8View',[('group','Packet.group','group_t'),('format','sysex8Format','packet_format'),('stream_id','sysex8StreamId','uint8_t'),('payload_size','sysex8PayloadSize','size_t'),('payload_byte','sysex8PayloadByte','uint8_t')])
CTOR['flex_data_message_view']=lambda s,a:L(s.app('flexView',a[0],ret='flex_data_message_view').v,'Packet','flex_data_message_view')
FREE['as_flex_data_message_view']=lambda s,p:s.app('asFlexData',p,ret='flex_data_message_view')
def sv(cls,status,asfn,getters):
    view(cls,'streamView',asfn,getters,ctorpre=(ci(status),))
ED='EndpointDiscoveryView.';EI='EndpointInfoView.'
ver=lambda N:[('ump_version_major',N+'umpVersionMajor','uint8_t'),('ump_version_minor',N+'umpVersionMinor','uint8_t'),('ump_version',N+'umpVersion','uint16_t')]
sv('endpoint_discovery_view',0,'asEndpointDiscovery',ver(ED)+[('filter',ED+'filter','uint8_t'),('requests_info',ED+'requestsInfo','bool'),('requests_device_identity',ED+'requestsDeviceIdentity','bool'),('requests_name',ED+'requestsName','bool'),('requests_product_instance_id',ED+'requestsProductInstanceId','bool'),('requests_stream_configuration',ED+'requestsStreamConfiguration','bool')])
sv('endpoint_info_view',1,'asEndpointInfo',ver(EI)+[('num_function_blocks',EI+'numFunctionBlocks','uint8_t'),('static_function_blocks',EI+'staticFunctionBlocks','bool'),('protocols',EI+'protocols','uint8_t'),('extensions',EI+'extensions','uint8_t')])
sv('device_identity_view',2,'asDeviceIdentity',[('identity','deviceIdentityViewIdentity','device_identity')])
sv('endpoint_name_view',3,'asEndpointName',[('format','streamFormat','packet_format'),('payload','endpointNamePayload','string')])
sv('product_instance_id_view',4,'asProductInstanceId',[('format','streamFormat','packet_format'),('payload','productInstanceIdPayload','string')])
view('stream_configuration_view','streamConfigurationView','asStreamConfiguration',[('protocol','StreamConfigurationView.protocol','protocol_t'),('extensions','StreamConfigurationView.extensions','extensions_t')])
FB='FunctionBlockDiscoveryView.';FI='FunctionBlockInfoView.'
sv('function_block_discovery_view',0x10,'asFunctionBlockDiscovery',[('function_block',FB+'functionBlock','uint8_t'),('filter',FB+'filter','uint8_t'),('requests_function_block',FB+'requestsFunctionBlock','bool'),('requests_info',FB+'requestsInfo','bool'),('requests_name',FB+'requestsName','bool')])
sv('function_block_info_view',0x11,'asFunctionBlockInfo',[('active',FI+'active','bool'),('function_block',FI+'functionBlock','uint8_t'),('direction',FI+'direction','uint8_t'),('midi1',FI+'midi1','uint8_t'),('ui_hint',FI+'uiHint','uint8_t'),('first_group',FI+'firstGroup','uint8_t'),('num_groups_spanned',FI+'numGroupsSpanned','uint8_t'),('ci_message_version',FI+'ciMessageVersion','uint8_t'),('max_num_sysex8_streams',FI+'maxNumSysex8Streams','uint8_t')])
sv('function_block_name_view',0x12,'asFunctionBlockName',[('function_block','functionBlockNameBlock','uint8_t'),('format','streamFormat','packet_format'),('payload','functionBlockNamePayload','string')])
# factories
def F(cpp,table,ret):
    """table: {number of arguments or predicate: (lean, padding)}"""
    def f(s,*a):
        for k,(fn,pad) in table.items():
            if (callable(k) and k(a)) or k==len(a): return s.app(fn,*(list(a)+pad),ret=ret)
        raise Un(f'{cpp} arity {len(a)}')
    FREE[cpp]=f
Z=ci(0);D7F=ci(0x7F)
M1='midi1_channel_voice_message';M2='midi2_channel_voice_message'
dv=lambda:L('defaultVelocity','U16','velocity')
F('make_utility_message',{2:('makeUtility',[])},'utility_message')
F('make_system_message',{2:('makeSystem',[Z,Z]),3:('makeSystem',[Z]),4:('makeSystem',[])},'system_message')
F('make_song_position_message',{2:('makeSongPosition',[])},'system_message')
F('make_midi1_channel_voice_message',{4:('makeMidi1',[Z]),5:('makeMidi1',[])},M1)
for n,l,k in(('note_off','NoteOff',4),('note_on','NoteOn',4),('poly_pressure','PolyPressure',4),('control_change','ControlChange',4),('program_change','ProgramChange',3),('channel_pressure','ChannelPressure',3),('pitch_bend','PitchBend',3)):
    F(f'make_midi1_{n}_message',{k:('makeMidi1'+l,[])},M1)
FREE['make_midi1_note_off_message']=lambda s,*a:s.app('makeMidi1NoteOff',*(list(a)+([s.construct('velocity',[])] if len(a)==3 else [])),ret=M1)
F('make_midi2_channel_voice_message',{6:('midi2Message',[]),5:('midi2Message',[Z]),4:('midi2Message',[Z,Z])},M2)
F('make_midi2_note_off_message',{4:('makeMidi2NoteOff',[Z,Z]),5:('makeMidi2NoteOff',[Z]),6:('makeMidi2NoteOff',[])},M2)
F('make_midi2_note_on_message',{4:('makeMidi2NoteOn',[]),(lambda a:len(a)==5 and a[4].ty=='pitch_7_9'):('makeMidi2NoteOnPitch',[]),(lambda a:len(a)==5 and a[4].ty!='pitch_7_9'):('makeMidi2NoteOnAttribute',[Z]),6:('makeMidi2NoteOnAttribute',[])},M2)
for n,l,k in(('midi2_poly_pressure','Midi2PolyPressure',4),('registered_per_note_controller','RegisteredPerNote',5),('assignable_per_note_controller','AssignablePerNote',5),('per_note_management','PerNoteManagement',4),('midi2_control_change','Midi2ControlChange',4),
 ('registered_controller','Registered',5),('assignable_controller','Assignable',5),('relative_registered_controller','RelativeRegistered',5),('relative_assignable_controller','RelativeAssignable',5),('midi2_channel_pressure','Midi2ChannelPressure',3),('midi2_pitch_bend','Midi2PitchBend',3),('per_note_pitch_bend','PerNotePitchBend',4)):
    F(f'make_{n}_message',{k:('make'+l,[])},M2)
F('make_midi2_program_change_message',{3:('makeMidi2ProgramChange',[]),4:('makeMidi2ProgramChangeBank',[])},M2)
for n,l in(('is_system_message','isSystemMessage'),('is_midi1_channel_voice_message','isMidi1CV'),('is_midi2_channel_voice_message','isMidi2CV'),('is_registered_controller_message','isRegistered'),('is_assignable_controller_message','isAssignable'),
 ('is_registered_per_note_controller_message','isRegisteredPerNote'),('is_registered_per_note_controller_pitch_message','isRegisteredPerNotePitch'),('is_assignable_per_note_controller_message','isAssignablePerNote'),('is_per_note_pitch_bend_message','isPerNotePitchBend'),
 ('is_note_on_with_pitch_7_9','isNoteOnWithPitch79'),('is_pitch_bend_sensitivity_message','isPitchBendSensitivity'),('is_per_note_pitch_bend_sensitivity_message','isPerNotePitchBendSensitivity'),
 ('is_midi2_registered_controller_message','isRegistered'),('is_midi2_assignable_controller_message','isAssignable'),('is_midi2_registered_per_note_controller_message','isRegisteredPerNote'),('is_midi2_assignable_per_note_controller_message','isAssignablePerNote'),('is_midi2_per_note_pitch_bend_message','isPerNotePitchBend'),
 ('is_note_on_message','isNoteOn'),('is_note_off_message','isNoteOff'),('is_poly_pressure_message','isPolyPressure'),('is_control_change_message','isControlChange'),('is_program_change_message','isProgramChange'),('is_channel_pressure_message','isChannelPressure'),('is_channel_pitch_bend_message','isPitchBend'),
 ('is_data_message','isDataMessage'),('is_sysex7_packet','isSysex7Packet'),('is_extended_data_message','isExtendedDataMessage'),('is_sysex8_packet','isSysex8Packet'),('is_stream_message','isStreamMessage'),('is_flex_data_message','isFlexDataMessage'),('is_utility_message','Packet.isUtility')):
    F(n,{1:(l,[])},'bool')
for n,l in(('is_note_on_with_attribute','isNoteOnWithAttribute'),('is_note_off_with_attribute','isNoteOffWithAttribute'),('is_channel_voice_message_with_status','isCVWithStatus')): F(n,{2:(l,[])},'bool')
for n,l,r in(('get_midi2_note_attribute','noteAttribute','uint8_t'),('get_midi2_note_attribute_data','noteAttributeData','uint16_t'),('get_per_note_controller_index','perNoteControllerIndex','uint8_t'),('get_midi2_per_note_controller_index','perNoteControllerIndex','uint8_t'),
 ('get_pitch_bend_sensitivity_value','pitchBendSensitivityValue','pitch_bend_sensitivity'),('get_per_note_pitch_bend_sensitivity_value','perNotePitchBendSensitivityValue','pitch_bend_sensitivity'),('get_per_note_pitch_bend_value','perNotePitchBendValue','pitch_bend'),
 ('get_note_nr','noteNr','note_nr_t'),('get_note_pitch','notePitch','pitch_7_9'),('get_note_velocity','noteVelocity','velocity'),('get_controller_nr','controllerNr','controller_t'),('get_controller_value','controllerValue','controller_value'),('get_poly_pressure_value','controllerValue','controller_value'),
 ('get_program_value','programValue','uint7_t'),('get_channel_pressure_value','channelPressureValue','controller_value'),('get_channel_pitch_bend_value','pitchBendValue','pitch_bend'),
 ('as_midi1_channel_voice_message','asMidi1',M1),('as_midi2_channel_voice_message','asMidi2',M2)): F(n,{1:(l,[])},r)
for i,n in enumerate(('complete','start','continue','end')):
    FREE[f'make_sysex7_{n}_packet']=(lambda i:lambda s,*a:s.app('makeSysex7',ci(i),*(a or (Z,)),ret='sysex7_packet'))(i)
    FREE[f'make_sysex8_{n}_packet']=(lambda i:lambda s,st,*a:s.app('makeSysex8',ci(i),st,*(a or (Z,)),ret='sysex8_packet'))(i)
SM='stream_message';FX='flex_data_message'
F('make_endpoint_discovery_message',{1:('makeEndpointDiscovery',[ci(1),ci(1)]),2:('makeEndpointDiscovery',[ci(1)]),3:('makeEndpointDiscovery',[])},SM)
F('make_endpoint_info_message',{4:('makeEndpointInfo',[ci(1),ci(1)]),6:('makeEndpointInfo',[])},SM)
F('make_device_identity_message',{1:('makeDeviceIdentityMessage',[])},SM)
F('make_endpoint_name_message',{2:('makeEndpointName',[])},SM)
F('make_product_instance_id_message',{2:('makeProductInstanceId',[])},SM)
F('make_stream_configuration_request',{1:('makeStreamConfigurationRequest',[Z]),2:('makeStreamConfigurationRequest',[])},SM)
F('make_stream_configuration_notification',{1:('makeStreamConfigurationNotification',[Z]),2:('makeStreamConfigurationNotification',[])},SM)
F('make_function_block_discovery_message',{2:('makeFunctionBlockDiscovery',[])},SM)
F('make_function_block_info_message',{(lambda a:len(a)==4 and a[1].ty=='function_block_options'):('makeFunctionBlockInfoWith',[]),(lambda a:len(a)==3 and a[1].ty!='function_block_options'):('makeFunctionBlockInfo',[ci(1)]),4:('makeFunctionBlockInfo',[]),(lambda a:len(a)==3 and a[1].ty=='function_block_options'):('makeFunctionBlockInfoWith',[ci(1)])},SM)
F('make_function_block_name_message',{3:('makeFunctionBlockName',[])},SM)
FBO=['active','direction','midi1','uiHint','ciMessageVersion','maxNumSysex8Streams']
FBOc=['active','direction','midi1','ui_hint','ci_message_version','max_num_sysex8_streams']
FBOt=['Bool','Byte','Byte','Byte','Byte','Byte']
CTOR['function_block_options']=lambda s,a:L(s.cx.let(':=','({ '+', '.join(f'{n} := {s.co(v,t)}' for n,v,t in zip(FBO,a,FBOt))+' } : FunctionBlockOptions)','FunctionBlockOptions'),'FunctionBlockOptions','function_block_options')
for n,l,t in zip(FBOc,FBO,FBOt):
    FIELD[('function_block_options',n)]=(lambda l,t:lambda s,o:L(f'{o.v}.{l}',t,'bool' if t=='Bool' else 'uint8_t'))(l,t)
    SETTER[('function_block_options',n)]=(lambda l,t:lambda s,o,v:L(s.cx.let(':=','{ '+o.v+f' with {l} := {s.co(v,t)} }}','FunctionBlockOptions'),'FunctionBlockOptions','function_block_options'))(l,t)
F('make_flex_data_message',{6:('makeFlexData',[Z]*3),7:('makeFlexData',[Z]*2),8:('makeFlexData',[Z]),9:('makeFlexData',[])},FX)
F('make_flex_data_text_message',{7:('makeFlexText',[])},FX)
F('make_set_tempo_message',{2:('makeSetTempo',[])},FX)
F('make_set_time_signature_message',{4:('makeSetTimeSignature',[])},FX)
F('make_set_metronome_message',{7:('makeSetMetronome',[])},FX)
F('make_set_key_signature_message',{5:('makeSetKeySignature',[])},FX)
F('make_set_chord_message',{6:('makeSetChord',[])},FX)
# ---------------- sysex
BASES.update(sysex7='sysex',sysex8='sysex',message='ci_message',ci_message='us_message',us_message='sysex7',identity_request='us_message',identity_reply='us_message')
def c_sysex(ty):
    def f(s,a):
        if not a: return L(s.cx.let(':=','(⟨0, []⟩ : Sysex)','Sysex'),'Sysex',ty)
        if a[0].k=='l' and a[0].lt=='Sysex': return L(a[0].v,'Sysex',ty)
        d='[]'
        if len(a)==2 and a[1].k=='list': d=s.co(a[1],'List Byte')
        elif len(a)==2 and a[1].k=='l' and a[1].lt=='List Byte': d=a[1].v
        elif len(a)==2 and a[1].k=='c' and isinstance(a[1].v,int): d='[]'
        elif len(a)==3: d=f'(List.take {s.co(a[2],"Nat")} {s.co(a[1],"List Byte")})'
        elif len(a)!=1: raise Un('sysex ctor')
        return L(s.cx.let(':=',f'(⟨{s.co(a[0],"Word")}, {d}⟩ : Sysex)','Sysex'),'Sysex',ty)
    return f
for t in('sysex','sysex7','sysex8'): CTOR[t]=c_sysex(t)
FIELD[('sysex','manufacturerID')]=lambda s,o:L(f'{o.v}.manufacturerID','Word','uint32_t')
FIELD[('sysex','data')]=lambda s,o:L(f'{o.v}.data','List Byte','sxdata')
SETTER[('sysex','manufacturerID')]=lambda s,o,v:L(s.cx.let(':=','{ '+o.v+f' with manufacturerID := {s.co(v,"Word")} }}','Sysex'),'Sysex',o.ty)
SETTER[('sysex','data')]=lambda s,o,v:L(s.cx.let(':=','{ '+o.v+f' with data := {s.co(v,"List Byte")} }}','Sysex'),'Sysex',o.ty)
SETTER[('sysex','data[]')]=lambda s,o,i,v:L(s.cx.let(':=','{ '+o.v+f' with data := {o.v}.data.set {s.co(i,"Nat")} {s.co(v,"Byte")} }}','Sysex'),'Sysex',o.ty)
METH[('sxdata','push_back')]=lambda s,o,v:(L(f'({o.v} ++ [{s.co(v,"Byte")}])','List Byte','sxdata'),None)
METH[('sxdata','clear')]=lambda s,o:(L('([] : List Byte)','List Byte','sxdata'),None)
METH[('sxdata','data')]=lambda s,o:L(o.v,'List Byte','ptr')
METH[('sxdata','begin')]=lambda s,o:L(o.v,'List Byte','ptr')
METH[('sxdata','resize')]=lambda s,o,n:(L(f'(({o.v} ++ List.replicate {s.co(n,"Nat")} 0).take {s.co(n,"Nat")})','List Byte','sxdata'),None)
def padd(s,a,b):
    r=L(f'({a.v}.drop {s.co(b,"Nat")})','List Byte','ptr');r.base=a.v;r.off=b;return r
BIN[('ptr','+','*')]=padd
def vadd(s,a,b):
    if b.k!='c': return V('ptr','l',f'(List.drop {s.co(b,"Nat")} {s.co(a,"List Byte")})','List Byte',base=s.co(a,'List Byte'),off=b)
    return V('vector','list',a.v[b.v:],base=a,off=b)
BIN[('vector','+','*')]=vadd
for _n in('header','chunk','data'): METH[('us_view',_n+'_end')]=(lambda n:lambda s,o:(lambda r:L(r.v,'List Byte','ptrend'))(lookup(METH,o.ty,n+'_begin')(s,o)))(_n)
class Mock(V):
    def __init__(s): V.__init__(s,'mock','obj',None);s.want=[];s.got=[];s.line=0
def mkmock(s,a):
    m=Mock();s.mocks.append(m);return m
CTOR['testing::StrictMock<parser_client>']=mkmock
CTOR['testing::Sequence']=lambda s,a:V('seq','obj',None)
def mkparser(s,a):
    grp=Z
    if s.isint(a[0]): grp=a[0];a=a[1:]
    if a[0].k!='fn2': raise Un('parser with lambda')
    has=len(a)>1 and a[1].k=='fn2';en=a[2] if len(a)>2 else V('bool','c',True)
    x=s.cx.let(':=',f'Parser.new {s.co(grp,"Byte")} {"true" if has else "false"} {s.co(en,"Bool")}','Parser')
    return V('parser','l',x,'Parser',mock=a[0].mock)
CTOR['midi1_byte_stream_parser']=mkparser
def pfeed(s,o,*a):
    if len(a)==1: bs='['+s.co(a[0],'Byte')+']'
    elif s.isint(a[1]): bs=f'(List.take {s.co(a[1],"Nat")} {s.co(a[0],"List Byte")})'
    elif getattr(a[1],'off',None) is not None: bs=f'(List.take {s.co(a[1].off,"Nat")} {s.co(a[0],"List Byte")})'
    else: raise Un('feed')
    x=s.cx.let('←',f'Parser.feedAll {o.v} {bs}','pair');o.mock.got.append(f'{x}.2')
    return (V('parser','l',f'{x}.1','Parser',mock=o.mock),None)
METH[('parser','feed')]=pfeed
def pm(fn):
    def f(s,o,*a):
        r=s.app(fn,o,*a,ret='parser');return (V('parser','l',s.cx.let(':=',r.v,'Parser'),'Parser',mock=o.mock),None)
    return f
METH[('parser','set_group')]=pm('Parser.setGroup');METH[('parser','enable_callbacks')]=pm('Parser.enableCallbacks');METH[('parser','reset')]=pm('Parser.reset')
FIELD[('pair','first')]=lambda s,o:o.v[0];FIELD[('pair','second')]=lambda s,o:o.v[1]

def pbytes(s,v):
    if v.k=='l' and v.lt=='ProfileId': return f'[{v.v}.b1, {v.v}.b2, {v.v}.b3, {v.v}.b4, {v.v}.b5]'
    if v.k=='list' and v.v and v.v[0].k=='l' and v.v[0].lt=='ProfileId': return pbytes(s,v.v[0])
    return s.co(v,'List Byte')
def memcmp(s,a,b,n):
    if a.lt=='DeviceIdentity': return L(f'(if {a.v} = {b.v} then 0 else 1)','Int','int')
    n=s.co(n,'Nat');return L(f'(if List.take {n} {pbytes(s,a)} = List.take {n} {pbytes(s,b)} then 0 else 1)','Int','int')
def memcmp0(s,a,b,n):
    n=s.co(n,'Nat');return L(f'(if List.take {n} {s.co(a,"List Byte")} = List.take {n} {s.co(b,"List Byte")} then 0 else 1)','Int','int')
FREE['memcmp']=memcmp
for n,l,r in(('total_data_size','totalDataSize','size_t'),('empty','empty','bool'),('is_7bit','is7bit','bool'),('is_8bit','is8bit','bool'),('is_valid','isValid','bool'),('make_uint14','makeUint14','uint14_t'),('make_uint28','makeUint28','uint28_t'),('make_uint32','makeUint32','uint32_t'),('make_device_identity','makeDeviceIdentity','device_identity')):
    METH[('sysex',n)]=g('Sysex.'+l,r)
for n,l in(('clear','clear'),('add_uint7','addUint7'),('add_uint14','addUint14'),('add_uint28','addUint28'),('add_uint32','addUint32'),('add_device_identity','addDeviceIdentity')): METH[('sysex',n)]=mut('Sysex.'+l)
def add_data(s,o,p,n): return (s.app('Sysex.addData',o,L(f'(List.take {s.co(n,"Nat")} {s.co(p,"List Byte")})','List Byte','ptr'),ret=o.ty),None)
METH[('sysex','add_data')]=add_data
METH[('==','sysex')]=lambda s,a,b:f'({a.v}.eqv {s.co(b,"Sysex")})'
METH[('!=','sysex')]=lambda s,a,b:f'({a.v}.neqv {s.co(b,"Sysex")})'
def plist(fn,pad,el):
    def f(s,*a):
        v=s.app(fn,*(list(a)+pad)[:len(SIG[fn][0])],ret='packets');v.el=el;return v
    return f
FREE['as_sysex7_packets']=plist('asSysex7Packets',[Z],'data_message');FREE['as_sysex8_packets']=plist('asSysex8Packets',[Z],'extended_data_message')
# ---------------- universal sysex
US='UniversalSysex.'
for n,l,r in(('is_universal_sysex_message','isUniversal','bool'),('universal_sysex_type_of','typeOf','type_t'),('universal_sysex_subtype_of','subtypeOf','subtype_t'),('universal_sysex_device_id_of','deviceIdOf','uint7_t'),('as_universal_sysex_view','asView','us_view'),
  ('is_identity_request','isIdentityRequest','bool'),('is_identity_reply','isIdentityReply','bool'),('as_identity_reply_view','asIdentityReplyView','identity_reply_view')): F(n,{1:(US+l,[])},r)
F('make_identity_request',{0:(US+'makeIdentityRequest',[D7F]),1:(US+'makeIdentityRequest',[])},'us_message')
F('make_identity_reply',{1:(US+'makeIdentityReplyOf',[]),4:(US+'makeIdentityReply',[D7F]),5:(US+'makeIdentityReply',[])},'us_message')
CTOR['identity_request']=lambda s,a:FREE['make_identity_request'](s,*a)
CTOR['identity_reply']=lambda s,a:FREE['make_identity_reply'](s,*a)
BASES['identity_reply_view']='us_view'
CTOR['us_view']=CTOR['universal_sysex_view']=lambda s,a:L(s.app(US+'makeView',a[0],ret='us_view').v,'Sysex','us_view')
CTOR['message_view']=CTOR['us_view']
CTOR['identity_reply_view']=lambda s,a:L(s.app(US+'makeView',a[0],ret='x').v,'Sysex','identity_reply_view')
METH[('identity_reply_view','identity')]=g(US+'IdentityReplyView.identity','device_identity')
METH[('identity_reply_view','static validate')]=lambda s,x:s.app(US+'IdentityReplyView.validate',x,ret='bool')
for n,l,r in(('device_id','deviceId','uint7_t'),('type','type','type_t'),('subtype','subtype','subtype_t')):
    METH[('us_view',n)]=g(US+'View.'+l,r);METH[('us_message',n)]=g(US+'Message.'+l,r)
METH[('us_view','data_size')]=g(US+'View.dataSize','size_t')
METH[('us_message','set_device_id')]=mut(US+'Message.setDeviceId')
FIELD[('us_view','sx')]=lambda s,o:L(o.v,'Sysex','sysex7')
METH[('us_view','as_identity_reply')]=lambda s,o:s.app(US+'asIdentityReplyView',o,ret='identity_reply_view')
METH[('us_view','static make_optional<identity_reply_view>')]=lambda s,o:s.app(US+'asIdentityReplyView',o,ret='identity_reply_view')
# ---------------- MIDI-CI
BASES['capability_inquiry_view']='us_view'
def civ(cls,ns,getters,base='capability_inquiry_view',validate=None):
    BASES[cls]=base
    val='CI.'+(validate or ns+'.validate')
    CTOR[cls]=lambda s,a:L(s.app('CI.makeView',a[0],ret=cls).v,'Sysex',cls)
    METH[(cls,'static validate')]=lambda s,x:s.app(val,x,ret='bool')
    METH[(cls,'ci as')]=lambda s,x:V(cls,'opt',s.cx.let('←',f'CI.asView {val} {s.co(x,"Sysex")}','Option Sysex'),'Sysex')
    for n,l,r in getters: METH[(cls,n)]=g('CI.'+(l if '.' in l else ns+'.'+l),r)
FREE['as<>']=lambda s,t,x:METH[(t,'ci as')](s,x)
civ('capability_inquiry_view','View',[('message_version','messageVersion','uint7_t'),('source_muid','sourceMuid','muid_t'),('destination_muid','destinationMuid','muid_t')],base='us_view')
FREE['is_capability_inquiry_message']=lambda s,x:s.app('CI.View.validate',x,ret='bool')
FREE['as_capability_inquiry_view']=lambda s,x:METH[('capability_inquiry_view','ci as')](s,x)
for n,l,r in(('message_version','messageVersion','uint7_t'),('source_muid','sourceMuid','muid_t'),('destination_muid','destinationMuid','muid_t')): METH[('ci_message',n)]=g('CI.Message.'+l,r)
METH[('ci_message','set_source_muid')]=mut('CI.Message.setSourceMuid');METH[('ci_message','set_destination_muid')]=mut('CI.Message.setDestinationMuid')
CTOR['message']=lambda s,a:c_sysex('us_message')(s,a) if len(a)==2 and a[1].k=='list' else (L(a[0].v,'Sysex','message') if len(a)==1 and a[0].k=='l' else s.app('CI.makeMessage',*(list(a)+[D7F])[:4],ret='message'))
METH[('message','static make_with_payload_size')]=lambda s,*a:s.app('CI.makeWithPayload',*(list(a[1:])+[D7F])[:4],ret='message')
DI=[('identity','Discovery.identity','device_identity'),('categories','Discovery.categories','uint7_t'),('maximum_message_size','Discovery.maximumMessageSize','uint28_t'),('output_path_id','Discovery.outputPathId','uint7_t')]
civ('discovery_inquiry_view','DiscoveryInquiryView',DI)
civ('discovery_reply_view','DiscoveryReplyView',DI+[('function_block','functionBlock','uint7_t')])
civ('endpoint_information_inquiry_view','EndpointInformationInquiryView',[('status','status','uint7_t')])
civ('endpoint_information_reply_view','EndpointInformationReplyView',[('status','status','uint7_t'),('information_data_length','dataLength','uint14_t'),('information_data','data','ptr')])
NK=[('transaction','Nack.transaction','uint7_t'),('status_code','Nack.statusCode','uint7_t'),('status_data','Nack.statusData','uint7_t'),('details','Nack.details','ptr'),('message_length','Nack.messageLength','uint14_t'),('message_data','Nack.message','ptr'),('message','Nack.message','string')]
civ('ack_view','AckView',NK);civ('nak_view','NakView',NK)
civ('invalidate_muid_view','InvalidateMuidView',[('target_muid','targetMuid','muid_t')])
civ('profile_inquiry_view','ProfileInquiryView',[])
civ('profile_inquiry_reply_view','ProfileInquiryReplyView',[('has_enabled_profiles','hasEnabled','bool'),('has_disabled_profiles','hasDisabled','bool'),('num_enabled_profiles','numEnabled','uint14_t'),('num_disabled_profiles','numDisabled','uint14_t'),('enabled_profiles','enabled','profiles'),('disabled_profiles','disabled','profiles')])
civ('profile_id_view','ProfileIdView',[('profile','profile','profile_id')])
civ('profile_destination_view','ProfileDestinationView',[('num_channels','numChannels','uint14_t'),('params','params','profile_destination')],base='profile_id_view')
civ('profile_details_inquiry_view','ProfileDetailsInquiryView',[('profile','profile','profile_id'),('target','target','uint7_t')])
civ('profile_details_reply_view','ProfileDetailsReplyView',[('profile','profile','profile_id'),('target','target','uint7_t'),('target_data_length','dataLength','uint14_t'),('target_data','data','ptr')])
civ('profile_specific_data_view','ProfileSpecificDataView',[('data_size','dataSize','size_t'),('data_begin','data','ptr')],base='profile_id_view')
PD=[('request_id','requestId','uint7_t'),('header_size','headerSize','size_t'),('header_begin','header','ptr'),('number_of_chunks','numberOfChunks','uint14_t'),('number_of_this_chunk','numberOfThisChunk','uint14_t'),('chunk_size','chunkSize','size_t'),('chunk_begin','chunk','ptr')]
civ('property_data_message_view','PropertyDataView',PD);METH.update({('property_exchange::'+k[0],k[1]):v for k,v in list(METH.items()) if k[0]=='property_data_message_view'})
BASES['property_exchange::property_data_message_view']='property_data_message_view';CTOR['property_exchange::property_data_message_view']=CTOR['property_data_message_view']
for n,l in(('get_property_data_view','GetPropertyDataView'),('set_property_data_view','SetPropertyDataView'),('subscription_view','SubscriptionView'),('notify_view','NotifyView')): civ(n,l,[],base='property_data_message_view')
civ('property_exchange_capabilities_view','PropertyExchangeCapabilitiesView',[('maximum_number_of_requests','maxRequests','uint7_t'),('pe_version_major','versionMajor','uint7_t'),('pe_version_minor','versionMinor','uint7_t')])
civ('process_inquiry_capabilities_reply_view','ProcessInquiryCapabilitiesReplyView',[('supported_features','supportedFeatures','uint7_t')])
MR=[('system_message_types','systemMessageTypes','uint7_t'),('channel_controller_message_types','channelControllerMessageTypes','uint7_t'),('note_data_message_types','noteDataMessageTypes','uint7_t')]
civ('midi_message_report_inquiry_view','MidiMessageReportInquiryView',MR+[('message_data_control','messageDataControl','uint7_t')])
civ('midi_message_report_reply_view','MidiMessageReportReplyView',MR)
CTOR['profile_id']=lambda s,a:L('(⟨'+', '.join(s.co(x,'Byte') for x in (a or [ci(0x7E),Z,Z,Z,Z]))+'⟩ : CI.ProfileId)','ProfileId','profile_id')
for i in range(1,6): FIELD[('profile_id',f'byte{i}')]=(lambda i:lambda s,o:L(f'{o.v}.b{i}','Byte','uint7_t'))(i)
METH[('==','profile_id')]=lambda s,a,b:f'({a.v}.eqv {s.co(b,"ProfileId")})'
METH[('!=','profile_id')]=lambda s,a,b:f'(!{a.v}.eqv {s.co(b,"ProfileId")})'
METH[('==','profile_destination')]=lambda s,a,b:f'({a.v}.eqv {s.co(b,"ProfileDestination")})'
METH[('!=','profile_destination')]=lambda s,a,b:f'(!{a.v}.eqv {s.co(b,"ProfileDestination")})'
CTOR['profile_destination']=lambda s,a:L('({ '+', '.join(f'{n} := {s.co(x,t)}' for n,x,t in zip(('scope','numChannels'),a,('Byte','U16')))+' } : CI.ProfileDestination)','ProfileDestination','profile_destination')
FIELD[('profile_destination','scope')]=lambda s,o:L(f'{o.v}.scope','Byte','uint7_t');FIELD[('profile_destination','num_channels')]=lambda s,o:L(f'{o.v}.numChannels','U16','uint14_t')
F('channel_profile',{1:('CI.channelProfile',[ci(1)]),2:('CI.channelProfile',[])},'profile_destination')
CONST['group_profile']=L('CI.groupProfile','ProfileDestination','profile_destination');CONST['function_block_profile']=L('CI.functionBlockProfile','ProfileDestination','profile_destination')
def C(cpp,*tab):
    """alternatives: (predicate or count, lean name, defaults)"""
    def f(s,*a):
        for k,fn,pad in tab:
            fn='CI.'+fn;n=len(SIG[fn][0])
            if (k(a) if callable(k) else len(a)==k):
                return s.app(fn,*(list(a)+pad[len(pad)-(n-len(a)):] if n>len(a) else a),ret='message')
        raise Un(f'{cpp}: no overload for {len(a)} arguments {[x.ty for x in a]}')
    FREE[cpp]=f
rng=lambda lo,hi,p=lambda a:True:(lambda a:lo<=len(a)<=hi and p(a))
C('make_discovery_inquiry',(rng(4,5),'makeDiscoveryInquiry',[Z]));C('make_discovery_inquiry_v1',(4,'makeDiscoveryInquiryV1',[]))
C('make_discovery_reply',(rng(6,7),'makeDiscoveryReply',[D7F]));C('make_discovery_reply_v1',(5,'makeDiscoveryReplyV1',[]))
C('make_endpoint_information_inquiry',(3,'makeEndpointInformationInquiry',[]))
def ptrlen(fn,pos,pad):
    """factories that take a pointer and a size at position pos"""
    def f(s,*a):
        a=list(a);b=L(f'(List.take {s.co(a[pos+1],"Nat")} {s.co(a[pos],"List Byte")})','List Byte','ptr');a=a[:pos]+[b]+a[pos+2:]
        n=len(SIG['CI.'+fn][0]);return s.app('CI.'+fn,*(a+pad[len(pad)-(n-len(a)):] if n>len(a) else a),ret='message')
    return f
FREE['make_endpoint_information_reply']=ptrlen('makeEndpointInformationReply',3,[])
C('make_ack_message',(8,'makeAck',[]));C('make_nak_message',(8,'makeNak',[]),(5,'makeNakFor',[]));C('make_nak_message_v1',(3,'makeNakV1',[]),(1,'makeNakV1For',[]))
C('make_invalidate_muid_message',(2,'makeInvalidateMuid',[]));C('make_profile_inquiry_message',(rng(2,3),'makeProfileInquiry',[D7F]))
C('make_profile_inquiry_reply',(rng(6,7),'makeProfileInquiryReplyN',[D7F]),(rng(4,5),'makeProfileInquiryReply',[D7F]))
for n,l in(('make_profile_on_request','makeProfileOn'),('make_profile_off_request','makeProfileOff'),('make_profile_enabled_notification','makeProfileEnabled'),('make_profile_disabled_notification','makeProfileDisabled')): C(n,(4,l,[]))
C('make_profile_added_notification',(rng(3,4),'makeProfileAdded',[D7F]));C('make_profile_removed_notification',(rng(3,4),'makeProfileRemoved',[D7F]))
C('make_profile_details_inquiry',(rng(4,5),'makeProfileDetailsInquiry',[D7F]))
FREE['make_profile_details_reply']=ptrlen('makeProfileDetailsReply',4,[D7F])
def psd(s,*a):
    if a[3].k=='list' and (len(a)==4 or (len(a)==5 and a[4].ty in('uint7_t',))) : return s.app('CI.makeProfileSpecificDataVector',*(list(a)+[D7F])[:5],ret='message')
    if len(a)>=5: return ptrlen('makeProfileSpecificData',3,[D7F])(s,*a)
    return s.app('CI.makeProfileSpecificDataVector',*(list(a)+[D7F])[:5],ret='message')
FREE['make_profile_specific_data_message']=psd
C('make_property_exchange_capabilities_inquiry',(rng(2,4),'makePeCapabilitiesInquiry',[ci(1),D7F]));C('make_property_exchange_capabilities_reply',(rng(2,4),'makePeCapabilitiesReply',[ci(1),D7F]))
def dvw(v,s):
    """header / chunk argument: {} , { pointer, size } or a string"""
    if v.k=='list' and v.ty=='init':
        if not v.v: return V('dv','c',None)
        if len(v.v)==2:
            p,n=v.v
            if p.k=='c' and p.v is None: return V('dv','c',None)
            return L(f'(List.take {s.co(n,"Nat")} {s.co(p,"List Byte")})','List Byte','dv')
        return v.v[0]
    return v
isl=lambda v:v.k=='list' or v.ty=='dv'
isstr=lambda v:v.ty in('string','string_view')
isnum=lambda v:v.k=='c' and isinstance(v.v,int)
def PE_(cpp,*tab):
    def f(s,*a):
        a=list(a)
        for pred,fn,dvpos in tab:
            if pred(a):
                fn='CI.'+fn;n=len(SIG[fn][0]);b=[dvw(x,s) if i in dvpos else x for i,x in enumerate(a)]
                pad=[Z,D7F];k=n-len(b)
                return s.app(fn,*(b+(pad[2-k:] if k else [])),ret='message')
        raise Un(f'{cpp}: overload {[x.ty for x in a]}')
    FREE[cpp]=f
PE_('make_get_property_data_inquiry',(lambda a:len(a)>3 and isl(a[3]),'makeGetInquiryOptions',()),(lambda a:True,'makeGetInquiry',()))
PE_('make_get_property_data_reply',(lambda a:len(a)>=6 and (isl(a[2]) or isstr(a[2])),'makeGetReplyHeader',(2,5)),(lambda a:len(a)>=7 and isnum(a[2]) and isstr(a[3]),'makeGetReplyMessage',(6,)),
  (lambda a:len(a)>=6 and isnum(a[2]) and isnum(a[4]) and not isnum(a[5]),'makeGetReplyStatus',(5,)),(lambda a:len(a)>=5 and isnum(a[2]) and not isnum(a[4]),'makeGetReplyChunk',(4,)))
PE_('make_set_property_data_inquiry',(lambda a:isstr(a[2]) and isl(a[3]),'makeSetInquiryOptions',(6,)),(lambda a:isstr(a[2]),'makeSetInquiry',(5,)),(lambda a:True,'makeSetInquiryChunk',(4,)))
for n,l in(('set_property_data_reply','SetReply'),('subscription_reply','SubscriptionReply'),('notify_message','Notify')):
    PE_('make_'+n,(lambda a:len(a)>3 and isstr(a[3]),'make'+l+'Message',()),(lambda a:True,'make'+l,()))
PE_('make_subscription_inquiry',(lambda a:isstr(a[2]) and len(a)>=8,'makeSubscriptionInquiryChunks',(7,)),(lambda a:isstr(a[2]),'makeSubscriptionInquiry',()),(lambda a:True,'makeSubscriptionInquiryChunk',(4,)))
FREE['property_exchange::make_property_data_message']=FREE['make_property_data_message']=lambda s,*a:s.app('CI.makePropertyData',*(lambda b:b+[Z,D7F][len(b)-7:] if len(b)<9 else b)([dvw(x,s) if i in(3,6) else x for i,x in enumerate(a)]),ret='message')
def mrj(s,k,v,*o):
    num=s.isint(v)
    if o: return s.app('CI.makeRjsonIntOptions' if num else 'CI.makeRjsonOptions',k,v,o[0],ret='string')
    return s.app('CI.makeRjsonInt' if num else 'CI.makeRjson',k,v,ret='string')
FREE['make_rjson']=FREE['property_exchange::make_rjson']=mrj
CTOR['header_options']=CTOR['property_exchange::header_options']=lambda s,a:V('opts','list',a[0].v if len(a)==1 and a[0].k=='list' and a[0].v and a[0].v[0].k=='list' else a)
CTOR['property_exchange::header']=CTOR['header']=lambda s,a:dvw(V('init','list',a),s);CTOR['property_exchange::chunk']=CTOR['chunk']=CTOR['property_exchange::header']
C('make_process_inquiry_capabilities_inquiry',(rng(2,3),'makeProcessInquiryCapabilitiesInquiry',[D7F]))
C('make_process_inquiry_capabilities_reply',(rng(3,4),'makeProcessInquiryCapabilitiesReply',[D7F]))
C('make_midi_message_report_inquiry',(rng(6,7),'makeMidiMessageReportInquiry',[D7F]));C('make_midi_message_report_reply',(rng(4,5),'makeMidiMessageReportReply',[D7F]));C('make_midi_message_report_end',(rng(1,2),'makeMidiMessageReportEnd',[D7F]))

def mkpkt(s,t,g,st,d):
    return s.construct(UP,[s.binop('|',s.binop('|',s.binop('<<',s.conv('uint32_t',t),ci(28)),s.binop('<<',s.binop('&',s.conv('group_t',g),ci(15)),ci(24))),s.binop('<<',s.conv('status_t',st),ci(16))),s.conv('uint32_t',d)])
FREE['make_packet']=mkpkt
FREE['SYSEX_ALLOCATOR_CAPTURE_COUNT']=FREE['SYSEX_ALLOCATOR_VERIFY_DIFF']=lambda s,*a:None
METH[('profiles','empty')]=lambda s,o:L(f'{o.v}.isEmpty','Bool','bool')

METH[('midi2_channel_voice_message_view','byte3')]=g('Packet.byte3','uint8_t');METH[('midi2_channel_voice_message_view','byte4')]=g('Packet.byte4','uint8_t')
FREE['midi1_byte_stream_size']=lambda s,p:L(f'(midi1ByteStreamSize {s.co(p,"Packet")})','Nat','size_t')
FREE['from_midi1_byte_stream']=lambda s,*a:s.app('fromMidi1ByteStream',*a,ret=UP)
METH[('sxdata','reserve')]=lambda s,o,n:o
FREE['discovery::make_discovery_message_v1']=lambda s,*a:s.app('CI.Discovery.makeMessageV1',*a,ret='message')
CONST['details']=V('det','obj',None);FIELD[('det','data')]=lambda s,o:V('vector','list',[ci(x) for x in(5,4,3,2,1)])
_mpr=FREE['make_profile_inquiry_reply']
_pb=CTOR['pitch_bend']
def _pb2(s,a):
    if a and a[0].ty in('uint14_t','uint16_t') and a[0].k=='c' and a[0].v>=2**14: raise Un('UNDEFINED pitch_bend of more than 14 bits')
    return _pb(s,a)
CTOR['pitch_bend']=_pb2
METH[('string','append')]=lambda s,o,x:(L(f'({s.co(o,"List Byte")} ++ {s.co(x,"List Byte")})','List Byte','string'),None)
